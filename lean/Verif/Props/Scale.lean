import Verif.Model.Intersect
import Verif.Proofs.Distance
import Verif.Proofs.Tol
import Verif.Proofs.TolExample
import Verif.Spec.Shapes

set_option linter.unusedSectionVars false

/-
C108: results do not depend on the unit of length.
-/
namespace Verif
open Spec TolE

/-- Shapes measured in another unit of length. Directions and normals have no unit. -/
def Line.scaled {D : ℕ} (k : ℝ) (l : Line ℝ D) : Line ℝ D := ⟨fun i => k * l.origin i, l.direction⟩
def Ray.scaled {D : ℕ} (k : ℝ) (r : Ray ℝ D) : Ray ℝ D := ⟨fun i => k * r.origin i, r.direction⟩
def Plane.scaled (k : ℝ) (p : Plane ℝ) : Plane ℝ := ⟨fun i => k * p.origin i, p.normal⟩
def Sphere.scaled (k : ℝ) (s : Sphere ℝ) : Sphere ℝ := ⟨fun i => k * s.origin i, k * s.radius⟩
def Segment.scaled {D : ℕ} (k : ℝ) (s : Segment ℝ D) : Segment ℝ D := ⟨fun i => k * s.source i, fun i => k * s.target i⟩

section
variable {k : ℝ} {D : ℕ}

theorem vsub_scaled (p q : Vec ℝ D) : vsub (fun i => k * p i) (fun i => k * q i) = fun i => k * vsub p q i := by
  funext i; simp only [vsub]; ring

theorem dot_scaled_left (p q : Vec ℝ D) : dot (fun i => k * p i) q = k * dot p q := by
  rw [dot_eq, dot_eq]; simp only [dotProduct, Finset.mul_sum]; exact Finset.sum_congr rfl fun i _ => by ring

theorem dot_scaled_right (p q : Vec ℝ D) : dot p (fun i => k * q i) = k * dot p q := by
  rw [dot_eq, dot_eq]; simp only [dotProduct, Finset.mul_sum]; exact Finset.sum_congr rfl fun i _ => by ring

theorem dot_lit (a b c d e f : ℝ) : dot (![a, b, c] : Vec ℝ 3) ![d, e, f] = a * d + b * e + c * f := by
  rw [dot_eq]; simp [dotProduct, Fin.sum_univ_three]

theorem length_scaled (hk : 0 < k) (p : Vec ℝ D) : length (fun i => k * p i) = k * length p := by
  show Real.sqrt _ = k * Real.sqrt _
  rw [dot_scaled_left, dot_scaled_right, ← mul_assoc, Real.sqrt_mul (by positivity), Real.sqrt_mul_self hk.le]

theorem rejection_scaled (p d : Vec ℝ D) : rejection (fun i => k * p i) d = fun i => k * rejection p d i := by
  rw [rejection_eq, rejection_eq]
  funext i
  have : (fun i => k * p i) = k • p := rfl
  simp only [this, smul_dotProduct, Pi.sub_apply, Pi.smul_apply, smul_eq_mul]
  ring

theorem point_scaled (p d : Vec ℝ D) (t : ℝ) : vadd (fun i => k * p i) (vscale d (k * t)) = fun i => k * vadd p (vscale d t) i := by
  funext i; simp only [vadd, vscale]; ring

theorem point_scaled' (p d : Vec ℝ D) (t : ℝ) : vadd (fun i => k * p i) (vscale (fun i => k * d i) t) = fun i => k * vadd p (vscale d t) i := by
  funext i; simp only [vadd, vscale]; ring

theorem closest_scaled [Tol ℝ] (p d q e : Vec ℝ D) (eps : ℝ) :
    closestPointOnLineParameters (fun i => k * p i) d (fun i => k * q i) e eps =
      (closestPointOnLineParameters p d q e eps).map fun c => ⟨k * c.t, k * c.s⟩ := by
  simp only [closestPointOnLineParameters, vsub_scaled, dot_scaled_right]
  split
  · rfl
  · simp only [Option.map_some, Option.some.injEq, CPOLParameters.mk.injEq]
    constructor <;> ring

theorem closest_scaled' [Tol ℝ] [LawfulTol ℝ] {eps : ℝ} (he : 0 < eps) (hk : 1 < k) (p d q e : Vec ℝ D) {c : CPOLParameters ℝ}
    (h : closestPointOnLineParameters p d q e eps = some c) :
    closestPointOnLineParameters (fun i => k * p i) (fun i => k * d i) (fun i => k * q i) (fun i => k * e i) eps = some c := by
  simp only [closestPointOnLineParameters, vsub_scaled, dot_scaled_right, dot_scaled_left] at h ⊢
  have hk0 : (0 : ℝ) < k := by linarith
  split at h
  · cases h
  · rename_i hz
    rw [Bool.not_eq_true] at hz
    have hne := ne_zero he hz
    have h1 := of_not_zero he hz
    have hk4 : (1 : ℝ) < k ^ 4 := one_lt_pow₀ hk (by norm_num)
    have e1 : k * (k * dot d d) * (k * (k * dot e e)) - k * (k * dot d e) * (k * (k * dot d e)) =
        k ^ 4 * (dot d d * dot e e - dot d e * dot d e) := by ring
    rw [e1, if_neg]
    · rw [← Option.some.inj h]
      simp only [Option.some.injEq, CPOLParameters.mk.injEq]
      constructor <;> field_simp
    · rw [zero_false he]
      · simp
      · rw [abs_mul, abs_of_pos (by positivity : (0:ℝ) < k ^ 4)]
        nlinarith

/-- **C108** Constructing a line, a plane or (in release builds) a ray from scaled data gives the scaled shape: the stored direction has no unit. -/
theorem C108_make [Tol ℝ] (hk : 0 < k) (o d : Vec ℝ 3) (g h : Vec ℝ 2) :
    Line.make (fun i => k * o i) (fun i => k * d i) = (Line.make o d).scaled k ∧
    Line.make (fun i => k * g i) (fun i => k * h i) = (Line.make g h).scaled k ∧
    Plane.make (fun i => k * o i) (fun i => k * d i) = (Plane.make o d).scaled k ∧
    Ray.make false (fun i => k * o i) (fun i => k * d i) = (Ray.make false o d).map (Ray.scaled k) := by
  have hn : ∀ {n : ℕ} (d : Vec ℝ n), normalize (fun i => k * d i) = normalize d := fun d => by
    funext i
    simp only [normalize, length_scaled hk]
    exact mul_div_mul_left _ _ hk.ne'
  refine ⟨?_, ?_, ?_, ?_⟩ <;> simp only [Line.make, Plane.make, Ray.make, hn] <;> rfl

/-- **C108** What does not depend on the unit: for every tolerance implementation, the distances of points, lines, planes and spheres, of two lines
and of a line and a ray are multiplied by the factor, and the intersection of two lines of the plane and of a plane and a line moves along. -/
theorem C108_exact [Tol ℝ] (hk : 0 < k) (dbg : Bool) (eps : ℝ) (p : Vec ℝ 3) (l l' : Line ℝ 3) (r : Ray ℝ 3) (e : Plane ℝ) (s : Sphere ℝ)
    (g g' : Line ℝ 2) :
    distVecLine (fun i => k * p i) (l.scaled k) = k * distVecLine p l ∧
    distPlaneVec (e.scaled k) (fun i => k * p i) = k * distPlaneVec e p ∧
    signedDistSphere (fun i => k * p i) (s.scaled k) = k * signedDistSphere p s ∧
    distSphere (fun i => k * p i) (s.scaled k) = k * distSphere p s ∧
    distLineLine dbg (l.scaled k) (l'.scaled k) = (distLineLine dbg l l').map (k * ·) ∧
    distLineRay (l.scaled k) (r.scaled k) = k * distLineRay l r ∧
    intersectLine2 (g.scaled k) (g'.scaled k) eps = (intersectLine2 g g' eps).map (fun q i => k * q i) ∧
    intersectPlaneLine (e.scaled k) (l.scaled k) eps = (intersectPlaneLine e l eps).map (fun q i => k * q i) := by
  have hv : ∀ (p : Vec ℝ 3) (l : Line ℝ 3), distVecLine (fun i => k * p i) (l.scaled k) = k * distVecLine p l := fun p l => by
    simp only [distVecLine, Line.scaled, vsub_scaled, rejection_scaled, length_scaled hk]
  refine ⟨hv p l, ?_, ?_, ?_, ?_, ?_, ?_, ?_⟩
  · simp only [distPlaneVec, Plane.scaled, vsub_scaled, dot_scaled_left, stdAbs_eq, abs_mul, abs_of_pos hk]
  · simp only [signedDistSphere, Sphere.scaled, vsub_scaled, length_scaled hk]; ring
  · simp only [distSphere, signedDistSphere, Sphere.scaled, vsub_scaled, length_scaled hk, stdAbs_eq]
    rw [← mul_sub, abs_mul, abs_of_pos hk]
  · have e1 : dot (vsub (fun i => k * l.origin i) fun i => k * l'.origin i) (cross l.direction l'.direction) / length (cross l.direction l'.direction)
        = k * (dot (vsub l.origin l'.origin) (cross l.direction l'.direction) / length (cross l.direction l'.direction)) := by
      rw [vsub_scaled, dot_scaled_left, mul_div_assoc]
    have e2 := hv l.origin l'
    simp only [Line.scaled] at e2
    unfold distLineLine
    simp only [Line.scaled, e1, e2]
    cases geoAssert dbg (isEq (length l.direction) 1) with
    | error => rfl
    | ok =>
      cases geoAssert dbg (isEq (length l'.direction) 1) with
      | error => rfl
      | ok =>
        simp only [ok_bind]
        split <;> rfl
  · have e1 := hv r.origin l
    simp only [Line.scaled] at e1
    simp only [distLineRay, Line.scaled, Ray.scaled, closest_scaled]
    cases closestPointOnLineParameters l.origin l.direction r.origin r.direction with
    | none => exact e1
    | some c =>
      simp only [Option.map_some, point_scaled, vsub_scaled, length_scaled hk, e1]
      have : (k * c.s < 0) = (c.s < 0) := propext ⟨fun h => by by_contra hc; nlinarith, fun h => mul_neg_of_pos_of_neg hk h⟩
      simp only [this]
      split <;> rfl
  · simp only [intersectLine2, Line.scaled, vsub_scaled]
    split
    · rfl
    · simp only [Option.map_some, Option.some.injEq]
      rw [← point_scaled]
      congr 2
      ring
  · simp only [intersectPlaneLine, Line.scaled, Plane.scaled, vsub_scaled, dot_scaled_left]
    split
    · rfl
    · simp only [Option.map_some, Option.some.injEq]
      rw [← point_scaled, mul_div_assoc]

/-- **C108** Segments, and spheres met in two points: measuring in a smaller unit (multiplying all coordinates by a factor above one) never loses an
intersection that was reported, and moves it along.  Partial: the converse is false, see `C108_small` and `C108_counterexample`. -/
theorem C108_enlarge_partial [Tol ℝ] [LawfulTol ℝ] (hk : 1 < k) (dbg : Bool) {eps : ℝ} (he : 0 < eps) (e : Plane ℝ) (s : Sphere ℝ) (l : Line ℝ 3)
    (a b : Segment ℝ 3) (c d : Segment ℝ 2) :
    (∀ p, intersectPlaneSegment e a eps = some p → intersectPlaneSegment (e.scaled k) (a.scaled k) eps = some fun i => k * p i) ∧
    (∀ p, intersectSegment3 a b eps = some p → intersectSegment3 (a.scaled k) (b.scaled k) eps = some fun i => k * p i) ∧
    (∀ p, intersectSegment2 dbg c d eps = .ok (some p) →
      intersectSegment2 dbg (c.scaled k) (d.scaled k) eps = .ok (some fun i => k * p i)) ∧
    (∀ p q, intersectSphereLine s l eps = ⟨some p, some q⟩ →
      intersectSphereLine (s.scaled k) (l.scaled k) eps = ⟨some fun i => k * p i, some fun i => k * q i⟩) := by
  have hk0 : (0 : ℝ) < k := by linarith
  have hk2 : (1 : ℝ) < k ^ 2 := one_lt_pow₀ hk (by norm_num)
  refine ⟨fun p h => ?_, fun p h => ?_, fun p h => ?_, fun p q h => ?_⟩
  · simp only [intersectPlaneSegment, calcIntersectionParameter, Plane.scaled, Segment.scaled, vsub_scaled, dot_scaled_left] at h ⊢
    cases hz : Tol.isZero (dot (vsub a.target a.source) e.normal) eps with
    | true => simp [hz] at h
    | false =>
      have h1 := of_not_zero he hz
      rw [zero_false (a := k * dot (vsub a.target a.source) e.normal) he]
      · simp only [hz, Bool.false_eq_true, if_false] at h ⊢
        rw [mul_div_mul_left _ _ hk0.ne']
        split at h
        · rename_i hc
          rw [if_pos hc, point_scaled', ← Option.some.inj h]
        · cases h
      · rw [abs_mul, abs_of_pos hk0]; nlinarith
  · simp only [intersectSegment3, Segment.scaled, vsub_scaled] at h ⊢
    cases hc : closestPointOnLineParameters a.source (vsub a.target a.source) b.source (vsub b.target b.source) eps with
    | none => simp [hc] at h
    | some c =>
      rw [hc] at h
      rw [closest_scaled' he hk _ _ _ _ hc]
      simp only at h ⊢
      split at h
      · cases h
      · rename_i hn
        rw [if_neg hn, point_scaled', ← Option.some.inj h]
  · simp only [intersectSegment2, Segment.scaled, vsub_scaled] at h ⊢
    generalize vsub c.target c.source = u at h ⊢
    generalize vsub d.target d.source = v at h ⊢
    generalize vsub d.source c.source = w at h ⊢
    have e1 : k * u 0 * (k * v 1) - k * v 0 * (k * u 1) = k ^ 2 * (u 0 * v 1 - v 0 * u 1) := by ring
    have e2 : (k * w 0 * (k * v 1) - k * w 1 * (k * v 0)) / (k ^ 2 * (u 0 * v 1 - v 0 * u 1)) =
        (w 0 * v 1 - w 1 * v 0) / (u 0 * v 1 - v 0 * u 1) := by
      rw [← mul_div_mul_left _ (u 0 * v 1 - v 0 * u 1) (pow_pos hk0 2).ne']; congr 1; ring
    have e3 : (k * u 0 * -(k * w 1) - k * u 1 * -(k * w 0)) / (k ^ 2 * (u 0 * v 1 - v 0 * u 1)) =
        (u 0 * -w 1 - u 1 * -w 0) / (u 0 * v 1 - v 0 * u 1) := by
      rw [← mul_div_mul_left _ (u 0 * v 1 - v 0 * u 1) (pow_pos hk0 2).ne']; congr 1; ring
    rw [e1, e2, e3]
    cases hz : Tol.isZero (u 0 * v 1 - v 0 * u 1) eps with
    | true => simp [hz] at h
    | false =>
      have h1 := of_not_zero he hz
      rw [zero_false (a := k ^ 2 * (u 0 * v 1 - v 0 * u 1)) he]
      · simp only [hz, Bool.false_eq_true, if_false] at h ⊢
        split at h
        · cases h
        · rename_i hn
          rw [if_neg hn]
          have hp : ∀ x y : ℝ, decide (k * x = k * y) = decide (x = y) := fun x y => by
            simp only [mul_right_inj' hk0.ne']
          simp only [point_scaled', hp]
          generalize geoAssert dbg _ = g at h ⊢
          cases g with
          | error => cases h
          | ok =>
            have h3 := Option.some.inj (Except.ok.inj h)
            rw [← h3]; rfl
      · rw [abs_mul, abs_of_pos (by positivity : (0:ℝ) < k ^ 2)]; nlinarith
  · simp only [intersectSphereLine, Sphere.scaled, Line.scaled, vsub_scaled, dot_scaled_left, dot_scaled_right] at h ⊢
    generalize vsub l.origin s.origin = w at h ⊢
    generalize hD : 2 * dot l.direction w * (2 * dot l.direction w) - 4 * dot l.direction l.direction * (dot w w - s.radius * s.radius) = Δ at h
    have e1 : 2 * (k * dot l.direction w) * (2 * (k * dot l.direction w)) -
        4 * dot l.direction l.direction * (k * (k * dot w w) - k * s.radius * (k * s.radius)) = k ^ 2 * Δ := by rw [← hD]; ring
    rw [e1]
    cases hg : Tol.isGreater Δ 0 eps with
    | true =>
      have h1 := of_less he ((greater_eq he _ _).symm.trans hg)
      rw [zero_add] at h1
      have hg' : Tol.isGreater (k ^ 2 * Δ) 0 eps = true := (greater_eq he _ _).trans (less_true he (by nlinarith))
      simp only [hg, hg', if_true, SphereIntersection.mk.injEq] at h ⊢
      have hs : HasSqrt.sqrt (k ^ 2 * Δ) = k * HasSqrt.sqrt Δ := by
        show Real.sqrt _ = k * Real.sqrt _
        rw [Real.sqrt_mul (by positivity), Real.sqrt_sq hk0.le]
      rw [hs, ← Option.some.inj h.1, ← Option.some.inj h.2]
      refine ⟨congrArg some ?_, congrArg some ?_⟩
      · rw [← point_scaled]; congr 2; ring
      · rw [← point_scaled]; congr 2; ring
    | false =>
      simp only [hg, Bool.false_eq_true, if_false] at h
      split at h
      · simp at h
      · simp at h

/-- **C108** Short segments never meet: whatever their position, two segments of the plane whose lengths multiply to less than the tolerance, two
segments of space whose squared lengths multiply to less than the tolerance, and a unit plane and a segment shorter than the tolerance are reported
not to intersect. -/
theorem C108_small [Tol ℝ] [LawfulTol ℝ] (dbg : Bool) {eps : ℝ} (he : 0 < eps) :
    (∀ c d : Segment ℝ 2, Spec.dist c.source c.target * Spec.dist d.source d.target < eps → intersectSegment2 dbg c d eps = .ok none) ∧
    (∀ a b : Segment ℝ 3, (Spec.dist a.source a.target * Spec.dist b.source b.target) ^ 2 < eps → intersectSegment3 a b eps = none) ∧
    (∀ (e : Plane ℝ) (a : Segment ℝ 3), Spec.norm e.normal = 1 → Spec.dist a.source a.target < eps → intersectPlaneSegment e a eps = none) := by
  have cs : ∀ {n : ℕ} (x y : Vec ℝ n), dot x y ^ 2 ≤ dot x x * dot y y := fun x y => by
    have h := Finset.sum_mul_sq_le_sq_mul_sq Finset.univ x y
    rw [dot_eq, dot_eq, dot_eq]
    simpa only [dotProduct, ← sq] using h
  have ds : ∀ {n : ℕ} (x y : Vec ℝ n), Spec.dist x y = Real.sqrt (dot (vsub y x) (vsub y x)) := fun x y => by
    rw [dot_eq, Spec.dist]
    congr 1
    exact Finset.sum_congr rfl fun i _ => by simp only [vsub]; ring
  have nn : ∀ {n : ℕ} (x : Vec ℝ n), 0 ≤ dot x x := fun x => by
    rw [dot_eq]; exact Finset.sum_nonneg fun i _ => mul_self_nonneg _
  refine ⟨fun c d h => ?_, fun a b h => ?_, fun e a hn h => ?_⟩
  · rw [ds, ds, ← Real.sqrt_mul (nn _)] at h
    simp only [intersectSegment2]
    generalize vsub c.target c.source = u at h ⊢
    generalize vsub d.target d.source = v at h ⊢
    rw [if_pos (zero_true he (lt_of_le_of_lt (Real.abs_le_sqrt ?_) h))]
    rw [dot_eq, dot_eq]
    simp only [dotProduct, Fin.sum_univ_two]
    nlinarith [sq_nonneg (u 0 * v 0 + u 1 * v 1)]
  · rw [ds, ds, mul_pow, Real.sq_sqrt (nn _), Real.sq_sqrt (nn _)] at h
    simp only [intersectSegment3, closestPointOnLineParameters]
    have h1 := cs (vsub a.target a.source) (vsub b.target b.source)
    rw [if_pos]
    refine zero_true he ?_
    rw [abs_lt]
    constructor <;> nlinarith [sq_nonneg (dot (vsub a.target a.source) (vsub b.target b.source))]
  · simp only [intersectPlaneSegment, calcIntersectionParameter]
    have h1 := cs (vsub a.target a.source) e.normal
    have h2 : dot e.normal e.normal = 1 := by
      rw [dot_eq]
      have : Spec.norm e.normal ^ 2 = 1 := by rw [hn]; norm_num
      rw [Spec.norm, Real.sq_sqrt (Finset.sum_nonneg fun i _ => sq_nonneg _)] at this
      simpa only [dotProduct, ← sq] using this
    rw [h2, mul_one] at h1
    rw [ds] at h
    rw [if_pos (zero_true he (lt_of_le_of_lt (Real.abs_le_sqrt h1) h))]

theorem meet3 [Tol ℝ] [LawfulTol ℝ] {eps : ℝ} (he : 0 < eps) (he' : eps < 1 / 2) :
    intersectSegment3 (⟨![-1, 0, 0], ![1, 0, 0]⟩ : Segment ℝ 3) ⟨![0, -1, 0], ![0, 1, 0]⟩ eps = some ![0, 0, 0] := by
  have g0 : Tol.isLess (1 / 2 : ℝ) 0 eps = false := less_false he (by linarith)
  have g1 : Tol.isLess 1 (1 / 2 : ℝ) eps = false := less_false he (by linarith)
  have e1 : vsub (![1, 0, 0] : Vec ℝ 3) ![-1, 0, 0] = ![2, 0, 0] := by funext i; fin_cases i <;> norm_num [vsub]
  have e2 : vsub (![0, 1, 0] : Vec ℝ 3) ![0, -1, 0] = ![0, 2, 0] := by funext i; fin_cases i <;> norm_num [vsub]
  have e4 : vadd (![-1, 0, 0] : Vec ℝ 3) (vscale ![2, 0, 0] (1 / 2)) = ![0, 0, 0] := by funext i; fin_cases i <;> norm_num [vadd, vscale]
  have c : closestPointOnLineParameters (![-1, 0, 0] : Vec ℝ 3) ![2, 0, 0] ![0, -1, 0] ![0, 2, 0] eps = some ⟨1 / 2, 1 / 2⟩ := by
    have e3 : vsub (![-1, 0, 0] : Vec ℝ 3) ![0, -1, 0] = ![-1, 1, 0] := by funext i; fin_cases i <;> norm_num [vsub]
    have d1 : dot (![2, 0, 0] : Vec ℝ 3) ![2, 0, 0] = 4 := by rw [dot_lit]; norm_num
    have d2 : dot (![2, 0, 0] : Vec ℝ 3) ![0, 2, 0] = 0 := by rw [dot_lit]; norm_num
    have d3 : dot (![0, 2, 0] : Vec ℝ 3) ![0, 2, 0] = 4 := by rw [dot_lit]; norm_num
    have d4 : dot (![2, 0, 0] : Vec ℝ 3) ![-1, 1, 0] = -2 := by rw [dot_lit]; norm_num
    have d5 : dot (![0, 2, 0] : Vec ℝ 3) ![-1, 1, 0] = 2 := by rw [dot_lit]; norm_num
    simp only [closestPointOnLineParameters, e3, d1, d2, d3, d4, d5]
    rw [zero_false he (by norm_num; linarith)]
    norm_num
  simp only [intersectSegment3, e1, e2, c, greater_eq he, g0, g1, e4]
  rfl

/-- **C108** The unit does matter: for every tolerance below one half there are two crossing segments of the plane (of space), a segment crossing a plane, and a
line through the centre of a sphere, whose intersection is reported in one unit of length and not in another; for the sphere the reported point is then
the centre, which is not on the sphere. -/
theorem C108_counterexample [Tol ℝ] [LawfulTol ℝ] (dbg : Bool) {eps : ℝ} (he : 0 < eps) (he' : eps < 1 / 2) :
    (∃ c d : Segment ℝ 2, intersectSegment2 dbg c d eps = .ok (some ![0, 0]) ∧
      ∃ k > 0, intersectSegment2 dbg (c.scaled k) (d.scaled k) eps = .ok none) ∧
    (∃ a b : Segment ℝ 3, intersectSegment3 a b eps = some ![0, 0, 0] ∧
      ∃ k > 0, intersectSegment3 (a.scaled k) (b.scaled k) eps = none) ∧
    (∃ (e : Plane ℝ) (a : Segment ℝ 3), Spec.norm e.normal = 1 ∧ intersectPlaneSegment e a eps = some ![0, 0, 0] ∧
      ∃ k > 0, intersectPlaneSegment (e.scaled k) (a.scaled k) eps = none) ∧
    (∃ (s : Sphere ℝ) (l : Line ℝ 3) (p q : Vec ℝ 3), 0 < s.radius ∧ intersectSphereLine s l eps = ⟨some p, some q⟩ ∧
      ∃ k > 0, intersectSphereLine (s.scaled k) (l.scaled k) eps = ⟨some (s.scaled k).origin, none⟩) := by
  have hk : (0 : ℝ) < eps / 4 := by linarith
  have hl : Spec.dist (fun i => eps / 4 * (![-1, 0] : Vec ℝ 2) i) (fun i => eps / 4 * (![1, 0] : Vec ℝ 2) i) = eps / 2 := by
    rw [Spec.dist, Fin.sum_univ_two, Real.sqrt_eq_iff_mul_self_eq (by positivity) (by positivity)]; simp; ring
  have hl' : Spec.dist (fun i => eps / 4 * (![0, -1] : Vec ℝ 2) i) (fun i => eps / 4 * (![0, 1] : Vec ℝ 2) i) = eps / 2 := by
    rw [Spec.dist, Fin.sum_univ_two, Real.sqrt_eq_iff_mul_self_eq (by positivity) (by positivity)]; simp; ring
  have hm : Spec.dist (fun i => eps / 4 * (![-1, 0, 0] : Vec ℝ 3) i) (fun i => eps / 4 * (![1, 0, 0] : Vec ℝ 3) i) = eps / 2 := by
    rw [Spec.dist, Fin.sum_univ_three, Real.sqrt_eq_iff_mul_self_eq (by positivity) (by positivity)]; simp; ring
  have hm' : Spec.dist (fun i => eps / 4 * (![0, -1, 0] : Vec ℝ 3) i) (fun i => eps / 4 * (![0, 1, 0] : Vec ℝ 3) i) = eps / 2 := by
    rw [Spec.dist, Fin.sum_univ_three, Real.sqrt_eq_iff_mul_self_eq (by positivity) (by positivity)]; simp; ring
  have hx : Spec.norm (![1, 0, 0] : Vec ℝ 3) = 1 := by rw [Spec.norm, Fin.sum_univ_three]; simp
  have z4 : Tol.isZero (4 : ℝ) eps = false := zero_false he (by rw [abs_of_pos (by norm_num)]; linarith)
  have g0 : Tol.isLess (1 / 2 : ℝ) 0 eps = false := less_false he (by linarith)
  have g1 : Tol.isLess 1 (1 / 2 : ℝ) eps = false := less_false he (by linarith)
  have g2 : Tol.isLess 0 (1 / 2 : ℝ) eps = true := less_true he (by linarith)
  refine ⟨⟨⟨![-1, 0], ![1, 0]⟩, ⟨![0, -1], ![0, 1]⟩, ?_, eps / 4, hk, ?_⟩, ⟨⟨![-1, 0, 0], ![1, 0, 0]⟩, ⟨![0, -1, 0], ![0, 1, 0]⟩, ?_, eps / 4, hk, ?_⟩,
    ⟨⟨![0, 0, 0], ![1, 0, 0]⟩, ⟨![-1, 0, 0], ![1, 0, 0]⟩, hx, ?_, eps / 4, hk, ?_⟩,
    ⟨⟨![0, 0, 0], 1⟩, ⟨![0, 0, 0], ![1, 0, 0]⟩, ![1, 0, 0], ![-1, 0, 0], one_pos, ?_, eps / 4, hk, ?_⟩⟩
  · have e1 : vsub (![1, 0] : Vec ℝ 2) ![-1, 0] = ![2, 0] := by funext i; fin_cases i <;> norm_num [vsub]
    have e2 : vsub (![0, 1] : Vec ℝ 2) ![0, -1] = ![0, 2] := by funext i; fin_cases i <;> norm_num [vsub]
    have e3 : vsub (![0, -1] : Vec ℝ 2) ![-1, 0] = ![1, -1] := by funext i; fin_cases i <;> norm_num [vsub]
    have e4 : vadd (![-1, 0] : Vec ℝ 2) (vscale ![2, 0] (1 / 2)) = ![0, 0] := by funext i; fin_cases i <;> norm_num [vadd, vscale]
    have e5 : vadd (![0, -1] : Vec ℝ 2) (vscale ![0, 2] (1 / 2)) = ![0, 0] := by funext i; fin_cases i <;> norm_num [vadd, vscale]
    have f1 : ((2 : ℝ) * 2 - 0 * 0) = 4 := by norm_num
    have f2 : ((1 : ℝ) * 2 - -1 * 0) / 4 = 1 / 2 := by norm_num
    have f3 : ((2 : ℝ) * -(-1) - 0 * -1) / 4 = 1 / 2 := by norm_num
    simp only [intersectSegment2, e1, e2, e3, Matrix.cons_val_zero, Matrix.cons_val_one, f1, f2, f3, z4, greater_eq he, g0, g1, e4, e5]
    cases dbg <;> rfl
  · refine (C108_small dbg he).1 _ _ ?_
    show Spec.dist (fun i => eps / 4 * (![-1, 0] : Vec ℝ 2) i) (fun i => eps / 4 * (![1, 0] : Vec ℝ 2) i) * Spec.dist (fun i => eps / 4 * (![0, -1] : Vec ℝ 2) i)
      (fun i => eps / 4 * (![0, 1] : Vec ℝ 2) i) < eps
    rw [hl, hl']; nlinarith
  · exact meet3 he he'
  · refine (C108_small dbg he).2.1 _ _ ?_
    show (Spec.dist (fun i => eps / 4 * (![-1, 0, 0] : Vec ℝ 3) i) (fun i => eps / 4 * (![1, 0, 0] : Vec ℝ 3) i) *
      Spec.dist (fun i => eps / 4 * (![0, -1, 0] : Vec ℝ 3) i) (fun i => eps / 4 * (![0, 1, 0] : Vec ℝ 3) i)) ^ 2 < eps
    rw [hm, hm']
    have h1 : eps / 2 * (eps / 2) ≤ 1 := by nlinarith
    have h2 : eps / 2 * (eps / 2) < eps := by nlinarith
    nlinarith
  · have e1 : vsub (![1, 0, 0] : Vec ℝ 3) ![-1, 0, 0] = ![2, 0, 0] := by funext i; fin_cases i <;> norm_num [vsub]
    have e2 : vsub (![0, 0, 0] : Vec ℝ 3) ![-1, 0, 0] = ![1, 0, 0] := by funext i; fin_cases i <;> norm_num [vsub]
    have e4 : vadd (![-1, 0, 0] : Vec ℝ 3) (vscale ![2, 0, 0] (1 / 2)) = ![0, 0, 0] := by funext i; fin_cases i <;> norm_num [vadd, vscale]
    have d1 : dot (![2, 0, 0] : Vec ℝ 3) ![1, 0, 0] = 2 := by rw [dot_lit]; norm_num
    have d2 : dot (![1, 0, 0] : Vec ℝ 3) ![1, 0, 0] = 1 := by rw [dot_lit]; norm_num
    have z2 : Tol.isZero (2 : ℝ) eps = false := zero_false he (by rw [abs_of_pos (by norm_num)]; linarith)
    simp only [intersectPlaneSegment, calcIntersectionParameter, e1, e2, d1, d2, z2, greater_eq he, lessEq_eq he, Bool.false_eq_true, if_false, g1, g2, e4]
    rfl
  · refine (C108_small dbg he).2.2 _ _ hx ?_
    show Spec.dist (fun i => eps / 4 * (![-1, 0, 0] : Vec ℝ 3) i) (fun i => eps / 4 * (![1, 0, 0] : Vec ℝ 3) i) < eps
    rw [hm]; linarith
  · have e1 : vsub (![0, 0, 0] : Vec ℝ 3) ![0, 0, 0] = ![0, 0, 0] := by funext i; fin_cases i <;> norm_num [vsub]
    have d1 : dot (![1, 0, 0] : Vec ℝ 3) ![1, 0, 0] = 1 := by rw [dot_lit]; norm_num
    have d2 : dot (![1, 0, 0] : Vec ℝ 3) ![0, 0, 0] = 0 := by rw [dot_lit]; norm_num
    have d3 : dot (![0, 0, 0] : Vec ℝ 3) ![0, 0, 0] = 0 := by rw [dot_lit]; norm_num
    have f1 : (2 * 0 * (2 * 0) - 4 * 1 * (0 - 1 * 1) : ℝ) = 4 := by norm_num
    have g4 : Tol.isGreater (4 : ℝ) 0 eps = true := (greater_eq he _ _).trans (less_true he (by linarith))
    have s4 : (HasSqrt.sqrt (4 : ℝ)) = 2 := by
      show Real.sqrt 4 = 2
      rw [Real.sqrt_eq_iff_mul_self_eq] <;> norm_num
    simp only [intersectSphereLine, e1, d1, d2, d3, f1, g4, s4, if_true, SphereIntersection.mk.injEq, Option.some.injEq]
    constructor <;> (funext i; fin_cases i <;> norm_num [vadd, vscale])
  · have e0 : (fun i => eps / 4 * (![0, 0, 0] : Vec ℝ 3) i) = ![0, 0, 0] := by funext i; fin_cases i <;> simp
    have e1 : vsub (![0, 0, 0] : Vec ℝ 3) ![0, 0, 0] = ![0, 0, 0] := by funext i; fin_cases i <;> norm_num [vsub]
    have d1 : dot (![1, 0, 0] : Vec ℝ 3) ![1, 0, 0] = 1 := by rw [dot_lit]; norm_num
    have d2 : dot (![1, 0, 0] : Vec ℝ 3) ![0, 0, 0] = 0 := by rw [dot_lit]; norm_num
    have d3 : dot (![0, 0, 0] : Vec ℝ 3) ![0, 0, 0] = 0 := by rw [dot_lit]; norm_num
    have f1 : (2 * 0 * (2 * 0) - 4 * 1 * (0 - eps / 4 * 1 * (eps / 4 * 1)) : ℝ) = eps ^ 2 / 4 := by ring
    have hsm : eps ^ 2 / 4 < eps := by nlinarith
    have g4 : Tol.isGreater (eps ^ 2 / 4) 0 eps = false := (greater_eq he _ _).trans (less_false he (by linarith))
    have z5 : Tol.isZero (eps ^ 2 / 4) eps = true := zero_true he (by rw [abs_of_nonneg (by positivity)]; exact hsm)
    simp only [intersectSphereLine, Sphere.scaled, Line.scaled, e0, e1, d1, d2, d3, f1, g4, z5, if_true, Bool.false_eq_true, if_false,
      SphereIntersection.mk.injEq, Option.some.injEq, and_true]
    funext i; fin_cases i <;> norm_num [vadd, vscale]
end

section Examples
attribute [local instance] realTol realTol_lawful

example := C108_make (k := 1000) (by norm_num) ![1, 2, 3] ![0, 3, 4] ![1, 2] ![3, 4]

example : distVecLine (fun i => 1000 * (![3, 4, 7] : Vec ℝ 3) i) ((⟨![0, 0, 0], ![0, 0, 1]⟩ : Line ℝ 3).scaled 1000)
    = 1000 * distVecLine ![3, 4, 7] ⟨![0, 0, 0], ![0, 0, 1]⟩ :=
  (C108_exact (k := 1000) (by norm_num) true (1 / 1000) ![3, 4, 7] ⟨![0, 0, 0], ![0, 0, 1]⟩ ⟨![0, 0, 3], ![0, 1, 0]⟩ ⟨![0, 5, 3], ![0, 1, 0]⟩
    ⟨![0, 0, 0], ![0, 0, 1]⟩ ⟨![1, 2, 3], 4⟩ ⟨![0, 0], ![1, 0]⟩ ⟨![3, 3], ![0, 1]⟩).1

/-- The hypothesis is met: these two segments are reported to meet. -/
example : intersectSegment3 (⟨![-1, 0, 0], ![1, 0, 0]⟩ : Segment ℝ 3) ⟨![0, -1, 0], ![0, 1, 0]⟩ (1 / 1000) = some ![0, 0, 0] ∧
    intersectSegment3 ((⟨![-1, 0, 0], ![1, 0, 0]⟩ : Segment ℝ 3).scaled 10) ((⟨![0, -1, 0], ![0, 1, 0]⟩ : Segment ℝ 3).scaled 10) (1 / 1000)
      = some fun i => 10 * (![0, 0, 0] : Vec ℝ 3) i := by
  have h := meet3 (eps := 1 / 1000) (by norm_num) (by norm_num)
  exact ⟨h, (C108_enlarge_partial (by norm_num) true (by norm_num) ⟨![0, 0, 0], ![0, 0, 1]⟩ ⟨![1, 2, 3], 4⟩ ⟨![0, 0, 0], ![0, 0, 1]⟩
    ⟨![-1, 0, 0], ![1, 0, 0]⟩ ⟨![0, -1, 0], ![0, 1, 0]⟩ ⟨![-1, 0], ![1, 0]⟩ ⟨![0, -1], ![0, 1]⟩).2.1 _ h⟩

example : intersectSegment2 true (⟨![-1 / 100, 0], ![1 / 100, 0]⟩ : Segment ℝ 2) ⟨![0, -1 / 100], ![0, 1 / 100]⟩ (1 / 1000) = .ok none := by
  refine (C108_small true (by norm_num)).1 _ _ ?_
  have h : ∀ x y : Vec ℝ 2, (x 0 - y 0) ^ 2 + (x 1 - y 1) ^ 2 = (1 / 50) ^ 2 → Spec.dist x y = 1 / 50 := fun x y h => by
    rw [Spec.dist, Fin.sum_univ_two, h, Real.sqrt_sq (by norm_num)]
  rw [h _ _ (by norm_num), h _ _ (by norm_num)]
  norm_num

example := C108_counterexample true (eps := 1 / 1000) (by norm_num) (by norm_num)
end Examples
end Verif
