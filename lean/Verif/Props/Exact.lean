import Verif.Props.AABB
import Verif.Props.Sphere
import Verif.Props.Convex

/-
How far the refuted claims C12, C24, C34, C35, C38 and C82 hold: the inputs for which the answer is right, up to the width of one
tolerance.
-/
namespace Verif
open Matrix
set_option linter.unusedSectionVars false

section
variable {K : Type*} [Field K] [LinearOrder K] [IsStrictOrderedRing K] [Tol K] [LawfulTol K] {D : ℕ}

/-- **C12** Which bounds of a grown default box are right: the lower bound of coordinate `i` is the coordinate of an added point if one is
clearly below 1, and it is the number 1 if none is; correspondingly for the upper bound and -1. -/
theorem C12_exact (pts : List (Vec K D)) (i : Fin D) :
    ((∃ p ∈ pts, p i + eps < 1) → ∃ p ∈ pts, (pts.foldl AABB.add (AABB.default : AABB K D)).min i = p i) ∧
    ((∀ p ∈ pts, 1 < p i + eps) → (pts.foldl AABB.add (AABB.default : AABB K D)).min i = 1) ∧
    ((∃ p ∈ pts, -1 + eps < p i) → ∃ p ∈ pts, (pts.foldl AABB.add (AABB.default : AABB K D)).max i = p i) ∧
    ((∀ p ∈ pts, p i < -1 + eps) → (pts.foldl AABB.add (AABB.default : AABB K D)).max i = -1) := by
  have he := eps_pos (K := K)
  have stay : ∀ (pts : List (Vec K D)) (b : AABB K D), b.min i = 1 → (∀ p ∈ pts, 1 < p i + eps) → (pts.foldl AABB.add b).min i = 1 := by
    intro pts
    induction pts with
    | nil => intro b hb _; exact hb
    | cons v l ih =>
      intro b hb h
      refine ih _ ?_ fun p hp => h p (List.mem_cons_of_mem _ hp)
      have := h v List.mem_cons_self
      show (if isLess (v i) (b.min i) then v i else b.min i) = 1
      rw [hb]
      split
      · rename_i hl
        have := of_isLess hl
        linarith
      · rfl
  have stay' : ∀ (pts : List (Vec K D)) (b : AABB K D), b.max i = -1 → (∀ p ∈ pts, p i < -1 + eps) →
      (pts.foldl AABB.add b).max i = -1 := by
    intro pts
    induction pts with
    | nil => intro b hb _; exact hb
    | cons v l ih =>
      intro b hb h
      refine ih _ ?_ fun p hp => h p (List.mem_cons_of_mem _ hp)
      have := h v List.mem_cons_self
      show (if isGreater (v i) (b.max i) then v i else b.max i) = -1
      rw [hb, isGreater_eq]
      split
      · rename_i hl
        have := of_isLess hl
        linarith
      · rfl
  obtain ⟨_, h2, h3, h4⟩ := C09_history (AABB.default : AABB K D) (pts.map AddOp.point)
  rw [← foldl_add_eq_run] at h2 h3 h4
  refine ⟨?_, stay pts _ rfl, ?_, stay' pts _ rfl⟩
  · rintro ⟨p, hp, hlt⟩
    rcases h3 i with h | ⟨op, hop, h⟩
    · have := (h2 _ (List.mem_map_of_mem hp) i).1
      rw [h] at this
      simp only [AddOp.lo, AABB.default] at this
      linarith
    · obtain ⟨p, hp, rfl⟩ := List.mem_map.1 hop
      exact ⟨p, hp, h⟩
  · rintro ⟨p, hp, hlt⟩
    rcases h4 i with h | ⟨op, hop, h⟩
    · have := (h2 _ (List.mem_map_of_mem hp) i).2
      rw [h] at this
      simp only [AddOp.hi, AABB.default] at this
      linarith
    · obtain ⟨p, hp, rfl⟩ := List.mem_map.1 hop
      exact ⟨p, hp, h⟩
end

/-- Two points to the right of 1: the lower bound is 1, which is no coordinate of a point. -/
example : letI := strictTol ℚ (1 / 1000)
    (([![3], ![2]] : List (Vec ℚ 1)).foldl AABB.add AABB.default).min 0 = 1 := by
  letI := strictTol ℚ (1 / 1000)
  haveI := strictTol_lawful (K := ℚ) (e := 1 / 1000) (by norm_num)
  refine (C12_exact [![3], ![2]] 0).2.1 ?_
  intro p hp
  have : (eps : ℚ) = 1 / 1000 := rfl
  rw [this]
  rcases List.mem_cons.1 hp with rfl | hp
  · norm_num
  · rcases List.mem_cons.1 hp with rfl | hp
    · norm_num
    · cases hp

section
variable [Tol ℝ] [LawfulTol ℝ]

/-- **C24** When the distance of two lines that are not nearly parallel has the right sign: exactly if the connection of the origins and the
two directions form no left-handed system. -/
theorem C24_exact (dbg : Bool) (lo d ro e : Vec ℝ 3) (hd : d ≠ 0) (he : e ≠ 0) (h : Spec.AngleAbove (eps ^ 2) d e) :
    ∃ x, distLineLine dbg (Line.make lo d) (Line.make ro e) = .ok x ∧
      (Spec.IsDistance (Spec.line lo d) (Spec.line ro e) x ↔ 0 ≤ det (Matrix.of ![lo - ro, d, e])) := by
  have hep := eps_pos (K := ℝ)
  obtain ⟨x, hx, hx2⟩ := C24_partial dbg lo d ro e hd he (Or.inr h)
  refine ⟨x, hx, ?_⟩
  have h0 : Spec.IsDistance (Spec.line lo d) (Spec.line ro e) x ↔ 0 ≤ x := by
    constructor
    · intro h1; rw [h1.unique hx2]; exact abs_nonneg _
    · intro h1; rwa [abs_of_nonneg h1] at hx2
  rw [h0]
  have hl1 := length_pos hd
  have hl2 := length_pos he
  have hg := (angle_iff hd he _).1 h
  have hlt : eps < Real.sqrt (Spec.gram (normalize d) (normalize e)) := Real.lt_sqrt_of_sq_lt hg
  have hcl : length (cross (normalize d) (normalize e)) = Real.sqrt (Spec.gram (normalize d) (normalize e)) := by
    rw [length_eq, cross_dp_self]
  rw [distLineLine_ok dbg lo d ro e hd he, hcl,
    if_neg (by rw [isZero_false (by rwa [abs_of_nonneg (Real.sqrt_nonneg _)])]; simp)] at hx
  cases hx
  have hk : dot (vsub lo ro) (cross (normalize d) (normalize e)) = (length d)⁻¹ * (length e)⁻¹ * det (Matrix.of ![lo - ro, d, e]) := by
    rw [dot_eq, vsub_eq, normalize_eq, normalize_eq, det_fin_three]
    simp only [dotProduct, Fin.sum_univ_three, cross, Pi.smul_apply, smul_eq_mul, of_apply, cons_val_zero, cons_val_one, cons_val_two, head_cons,
      tail_cons, Pi.sub_apply, Fin.isValue, if_true, one_ne_zero, if_false, Fin.reduceEq]
    ring
  rw [hk]
  have hs : 0 < Real.sqrt (Spec.gram (normalize d) (normalize e)) := hep.trans hlt
  constructor
  · intro h1
    by_contra h2
    exact absurd h1 (not_le.2 (div_neg_of_neg_of_pos (mul_neg_of_pos_of_neg (by positivity) (not_le.1 h2)) hs))
  · intro h1; positivity

/-- **C34** What is missed: exactly the common points nearer than the tolerance to the origin of the ray (`C34_complete_partial` has the
others). -/
theorem C34_near (dbg : Bool) {ε : ℝ} (hε : 0 < ε) (po n o d q : Vec ℝ 3) (hn : n ≠ 0) (hd : d ≠ 0)
    (r : Ray ℝ 3) (hr : Ray.make dbg o d = .ok r) (hang : ε * (Spec.norm d * Spec.norm n) < |∑ i, d i * n i|)
    (h1 : q ∈ Spec.plane po n) (h2 : q ∈ Spec.ray o d) (hnear : Spec.dist o q < ε) :
    intersectPlaneRay (Plane.make po n) r ε = none := by
  cases Ray.make_eq hr
  rw [← plane_normalize po hn] at h1
  rw [← ray_normalize o hd] at h2
  have hc := cos_key hd hn hang
  have hu := normalize_dp_self hd
  obtain ⟨t, ht0, rfl⟩ := h2
  have hdist : Spec.dist o (Spec.pointAt o (normalize d) t) = t := by
    rw [dist_comm', spec_dist_eq, pointAt_eq, add_sub_cancel_left, dp_smul_self, hu, mul_one, Real.sqrt_sq ht0]
  rw [hdist] at hnear
  have hz := TolE.zero_false hε hc
  have hne := TolE.ne_zero hε hz
  have ht := (plane_param hne t).1 h1
  unfold intersectPlaneRay calcIntersectionParameter Plane.make
  simp only [dot_eq, vsub_eq, TolE.greater_eq hε, hz, Bool.false_eq_true, if_false]
  rw [← ht, if_neg (by rw [TolE.less_false hε (by linarith)]; simp)]

/-- **C35** What is missed: exactly the common points at a parameter below the tolerance (`C35_complete_partial` has the others). -/
theorem C35_near {ε : ℝ} (hε : 0 < ε) (po n a b : Vec ℝ 3) (hn : n ≠ 0) (t : ℝ)
    (hang : ε * Spec.norm n < |∑ i, (b i - a i) * n i|) (h1 : t < ε)
    (hq : (fun i => a i + t * (b i - a i)) ∈ Spec.plane po n) :
    intersectPlaneSegment (Plane.make po n) ⟨a, b⟩ ε = none := by
  rw [← plane_normalize po hn] at hq
  rw [spec_norm_eq] at hang
  have hl := length_pos hn
  have hc : ε < |(b - a) ⬝ᵥ normalize n| := by
    rw [normalize_eq, dotProduct_smul, smul_eq_mul, abs_mul, abs_of_pos (inv_pos.2 hl), ← div_eq_inv_mul]
    exact (lt_div_iff₀ hl).2 hang
  have hz := TolE.zero_false hε hc
  have hne := TolE.ne_zero hε hz
  rw [seg_pointAt] at hq
  have ht := (plane_param hne t).1 hq
  unfold intersectPlaneSegment calcIntersectionParameter Plane.make
  simp only [dot_eq, vsub_eq, TolE.greater_eq hε, TolE.lessEq_eq hε, hz, Bool.false_eq_true, if_false]
  rw [← ht, TolE.less_false hε (by linarith)]; rfl

/-- **C38** What is reported when the carrier line touches the sphere (up to the tolerance of the discriminant) in its point with parameter
`t`: the point with parameter `t l⁴`, where `l` is the length of the segment. -/
theorem C38_touch {ε : ℝ} (hε : 0 < ε) (c a b : Vec ℝ 3) (r t : ℝ) (hab : a ≠ b)
    (hh : Spec.IsDistance {c} (Spec.line a (b - a)) (Spec.dist c (Spec.pointAt a (b - a) t)))
    (hc : 4 * Spec.dist a b ^ 2 * |r ^ 2 - Spec.dist c (Spec.pointAt a (b - a) t) ^ 2| < ε) :
    (0 ≤ t * Spec.dist a b ^ 4 → t * Spec.dist a b ^ 4 ≤ 1 →
      intersectSphereSegment ⟨c, r⟩ ⟨a, b⟩ ε = ⟨some (Spec.pointAt a (b - a) (t * Spec.dist a b ^ 4)), none⟩) ∧
    (t * Spec.dist a b ^ 4 < -ε ∨ 1 + ε < t * Spec.dist a b ^ 4 → intersectSphereSegment ⟨c, r⟩ ⟨a, b⟩ ε = ⟨none, none⟩) ∧
    (intersectSphereSegment ⟨c, r⟩ ⟨a, b⟩ ε).second = none ∧
    (∀ p, (intersectSphereSegment ⟨c, r⟩ ⟨a, b⟩ ε).first = some p → p = Spec.pointAt a (b - a) (t * Spec.dist a b ^ 4)) := by
  have hd : b - a ≠ 0 := fun e => hab (sub_eq_zero.1 e).symm
  have hD := discr_eq hd r hh
  have hlen : (b - a) ⬝ᵥ (b - a) = Spec.dist a b ^ 2 := by
    rw [dist_comm', spec_dist_eq, Real.sq_sqrt (dp_self_nonneg _)]
  have hp := dp_self_pos hd
  have h1 : |discr c a (b - a) r| < ε := by
    rw [hD, abs_mul, abs_of_pos (by linarith), hlen]; exact hc
  have h2 := abs_lt.1 h1
  have hfoot : -(2 * ((b - a) ⬝ᵥ (a - c))) / 2 * ((b - a) ⬝ᵥ (b - a)) = t * Spec.dist a b ^ 4 := by
    have h5 : (b - a) ⬝ᵥ (a - c) = -(t * ((b - a) ⬝ᵥ (b - a))) := by
      set A := (b - a) ⬝ᵥ (b - a) with hA
      set B := (b - a) ⬝ᵥ (a - c) with hB
      have h6 := hh.2 ⟨c, rfl, _, ⟨-B / A, rfl⟩, rfl⟩
      rw [dist_comm', dist_comm' c, spec_dist_eq, spec_dist_eq] at h6
      have h7 := (Real.sqrt_le_sqrt_iff (dp_self_nonneg _)).1 h6
      rw [sphere_sq, sphere_sq, ← hA, ← hB] at h7
      have h8 : A * (-B / A * (-B / A)) + 2 * B * (-B / A) = -(B ^ 2 / A) := by field_simp; ring
      have h9 : A * (B ^ 2 / A) = B ^ 2 := by field_simp
      have h10 : (A * t + B) ^ 2 ≤ 0 := by nlinarith
      have h11 := pow_eq_zero_iff (two_ne_zero) |>.1 (le_antisymm h10 (sq_nonneg _))
      linarith
    rw [h5, hlen]; ring
  rw [sphereSegment_eval _ _ _ _ _ hε]
  simp only
  rw [if_neg (by rw [TolE.less_false hε (by linarith)]; simp), if_neg (by rw [TolE.less_false hε (by linarith)]; simp), hfoot]
  refine ⟨?_, ?_, rfl, ?_⟩
  · intro h3 h4
    rw [TolE.less_false hε (by linarith), TolE.less_false hε (by linarith)]; simp
  rotate_left
  · intro p hp
    split at hp
    · cases hp
    · cases hp; rfl
  · rintro (h3 | h3)
    · rw [TolE.less_true hε (by linarith)]; simp
    · rw [TolE.less_true (a := 1) hε (by linarith), Bool.or_true]; simp

/-- **C38** The point in which a segment touches a sphere is reported exactly if the segment has length one or starts there. -/
theorem C38_touch_exact {ε : ℝ} (hε : 0 < ε) (c a b q : Vec ℝ 3) (r : ℝ) (hab : a ≠ b) (hr : 0 ≤ r) (hq : q ∈ Spec.segment a b)
    (hs : q ∈ Spec.sphere c r) (hh : Spec.IsDistance {c} (Spec.line a (b - a)) r) :
    (intersectSphereSegment ⟨c, r⟩ ⟨a, b⟩ ε).first = some q ↔ Spec.dist a b = 1 ∨ q = a := by
  have hd : b - a ≠ 0 := fun e => hab (sub_eq_zero.1 e).symm
  obtain ⟨t, ht0, ht1, rfl⟩ := hq
  rw [seg_pointAt] at *
  have hsd : Spec.dist c (Spec.pointAt a (b - a) t) = r := by rw [dist_comm']; exact hs
  have hinj : ∀ u v : ℝ, Spec.pointAt a (b - a) u = Spec.pointAt a (b - a) v → u = v := by
    intro u v h
    rw [pointAt_eq, pointAt_eq] at h
    have h1 : (u - v) • (b - a) = 0 := by rw [sub_smul, sub_eq_zero]; exact add_left_cancel h
    rcases smul_eq_zero.1 h1 with h2 | h2
    · linarith
    · exact absurd h2 hd
  have h0 : Spec.pointAt a (b - a) 0 = a := by rw [pointAt_eq, zero_smul, add_zero]
  obtain ⟨k1, -, -, k2⟩ := C38_touch hε c a b r t hab (by rw [hsd]; exact hh) (by rw [hsd]; simpa using hε)
  have hnn : 0 ≤ Spec.dist a b := dist_nonneg' _ _
  have hpos : 0 ≤ t * Spec.dist a b ^ 4 := by positivity
  constructor
  · intro h
    have hle : t * Spec.dist a b ^ 4 = t := (hinj _ _ (k2 _ h)).symm
    by_cases htz : t = 0
    · right; rw [htz, h0]
    · left
      have h4 : Spec.dist a b ^ 4 = 1 := by
        have : t * Spec.dist a b ^ 4 = t * 1 := by rw [hle, mul_one]
        exact mul_left_cancel₀ htz this
      exact (pow_eq_one_iff_of_nonneg hnn (by norm_num)).1 h4
  · intro h
    have h5 : t * Spec.dist a b ^ 4 = t := by
      rcases h with h | h
      · rw [h]; ring
      · have : t = 0 := hinj t 0 (by rw [h0]; exact h)
        rw [this, zero_mul]
    rw [k1 hpos (by rw [h5]; exact ht1), h5]
end

section
variable [BEq (Vec ℝ 3)] [LawfulBEq (Vec ℝ 3)]

/-- **C82** The mesh of a cuboid with independent sides faces outward exactly if the sides form a right-handed system. -/
theorem C82_exact (dbg : Bool) (M w : Nat) (b : CuboidBuilder ℝ) (hM : 36 < M) (hd : det (Matrix.of b.theCuboid.sides) ≠ 0) :
    ∃ m b', b.build dbg M w = .ok (m, b') ∧
      (OutwardMesh m (cuboidCenter b.theCuboid) ↔ 0 < det (Matrix.of b.theCuboid.sides)) := by
  rcases lt_or_gt_of_ne hd with h | h
  · obtain ⟨m, b', hm, hl, hf⟩ := C82_cuboid_counterexample dbg M w b hM h
    refine ⟨m, b', hm, fun ho => ?_, fun h1 => absurd h1 (not_lt.2 h.le)⟩
    obtain ⟨f, hmem⟩ := List.exists_mem_of_length_pos (l := m.facets) (by omega)
    obtain ⟨h0, h1, h2, p, q, r, e, e0, e1, e2, hs⟩ := hf f hmem
    obtain ⟨k0, k1, k2, p', q', r', e', e0', e1', e2', hs', _⟩ := ho f hmem
    rw [e] at e'; cases e'
    rw [e0] at e0'; rw [e1] at e1'; rw [e2] at e2'
    cases e0'; cases e1'; cases e2'
    exact absurd hs (not_lt.2 hs'.le)
  · obtain ⟨m, b', hm, ho⟩ := C82_cuboid_partial dbg M w b hM h
    exact ⟨m, b', hm, fun _ => h, fun _ => ho⟩
end

section Examples
attribute [local instance] realTol realTol_lawful

theorem exact_eps : (eps : ℝ) < 1 / 100 := by
  show (_ : ℝ) < _
  norm_num [eps, Tol.eps]

/-- The lines of `C24_counterexample` the other way round: the distance is right. -/
example : ∃ x, distLineLine true (Line.make ![0, 0, 1] ![1, 0, 0]) (Line.make 0 ![0, 1, 0]) = .ok x ∧
    Spec.IsDistance (Spec.line ![0, 0, 1] ![1, 0, 0]) (Spec.line 0 ![0, 1, 0]) x := by
  obtain ⟨x, hx, hi⟩ := C24_exact true ![0, 0, 1] ![1, 0, 0] 0 ![0, 1, 0] ex_x_ne
    (by intro h; have := congrFun h 1; simp at this)
    (by
      have := exact_eps
      have := eps_pos (K := ℝ)
      simp [Spec.AngleAbove, Spec.gram, Fin.sum_univ_three]
      rw [abs_lt]; constructor <;> linarith)
  exact ⟨x, hx, hi.2 (by rw [det_fin_three]; simp)⟩

/-- A ray that starts closer than the tolerance to the plane. -/
example : ∃ r, Ray.make false ![-(1 / 1000), 0, 0] ![1, 0, 0] = .ok r ∧
    intersectPlaneRay (Plane.make 0 ![1, 0, 0]) r (1 / 100 : ℝ) = none := by
  have hl : length (![1, 0, 0] : Vec ℝ 3) = 1 := by rw [length_eq]; simp [dotProduct, Fin.sum_univ_three]
  have hr : Ray.make false (![-(1 / 1000), 0, 0] : Vec ℝ 3) ![1, 0, 0] = .ok ⟨![-(1 / 1000), 0, 0], normalize ![1, 0, 0]⟩ :=
    Ray.make_ok (by rw [hl]; exact exact_eps.trans (by norm_num))
  refine ⟨_, hr, ?_⟩
  refine C34_near false (by norm_num) 0 ![1, 0, 0] ![-(1 / 1000), 0, 0] ![1, 0, 0] 0 ex_x_ne ex_x_ne _ hr ?_ ?_ ?_ ?_
  · rw [spec_norm_eq, hl]; simp [Fin.sum_univ_three]; norm_num
  · simp [Spec.plane]
  · refine ⟨1 / 1000, by norm_num, ?_⟩
    funext i; fin_cases i <;> simp [Spec.pointAt]
  · rw [spec_dist_eq]
    simp [dotProduct, Fin.sum_univ_three]
    norm_num

/-- A segment cut by the plane close to its source. -/
example : intersectPlaneSegment (Plane.make 0 ![1, 0, 0]) ⟨![-1, 0, 0], ![999, 0, 0]⟩ (1 / 100 : ℝ) = none := by
  have hl : length (![1, 0, 0] : Vec ℝ 3) = 1 := by rw [length_eq]; simp [dotProduct, Fin.sum_univ_three]
  refine C35_near (by norm_num) 0 ![1, 0, 0] ![-1, 0, 0] ![999, 0, 0] ex_x_ne (1 / 1000) ?_ (by norm_num) ?_
  · rw [spec_norm_eq, hl]; simp [Fin.sum_univ_three]; norm_num
  · simp [Spec.plane, Fin.sum_univ_three]; norm_num

/-- The distance of the centre from the tangent. -/
theorem exTangent (k : ℝ) : Spec.IsDistance {(0 : Vec ℝ 3)} (Spec.line ![-k, 1, 0] (![k, 1, 0] - ![-k, 1, 0])) 1 := by
  constructor
  · refine ⟨0, rfl, ![0, 1, 0], ⟨1 / 2, ?_⟩, ?_⟩
    · funext i; fin_cases i <;> simp [Spec.pointAt]; ring
    · rw [spec_dist_eq]; simp [dotProduct, Fin.sum_univ_three]
  · rintro x ⟨p, hp, q, ⟨t, rfl⟩, rfl⟩
    cases hp
    rw [spec_dist_eq]
    apply Real.le_sqrt_of_sq_le
    simp [dotProduct, Fin.sum_univ_three, Spec.pointAt]
    nlinarith [sq_nonneg (-k + t * (k + k))]

/-- The tangent of length 4 in `C38_counterexample_missed` is missed because its length is not one. -/
example : (intersectSphereSegment ⟨0, 1⟩ ⟨![-2, 1, 0], ![2, 1, 0]⟩ (1 / 100 : ℝ)).first ≠ some ![0, 1, 0] := by
  have hq : (![0, 1, 0] : Vec ℝ 3) ∈ Spec.segment ![-2, 1, 0] ![2, 1, 0] := by
    refine ⟨1 / 2, by norm_num, by norm_num, ?_⟩
    funext i; fin_cases i <;> simp; norm_num
  rw [Ne, C38_touch_exact (by norm_num) 0 ![-2, 1, 0] ![2, 1, 0] ![0, 1, 0] 1 (by intro h; have := congrFun h 0; norm_num at this) zero_le_one hq
    (by rw [mem_sphere zero_le_one]; simp [dotProduct, Fin.sum_univ_three]) (exTangent 2)]
  rintro (h | h)
  · rw [spec_dist_eq] at h
    have := (Real.sqrt_eq_one).1 h
    simp [dotProduct, Fin.sum_univ_three] at this
    norm_num at this
  · have := congrFun h 0
    norm_num at this

/-- A tangent of length 1 / 2 that touches the sphere in its midpoint: the reported point is near the source. -/
example : intersectSphereSegment ⟨0, 1⟩ ⟨![-(1 / 4), 1, 0], ![1 / 4, 1, 0]⟩ (1 / 100 : ℝ) =
    ⟨some (Spec.pointAt ![-(1 / 4), 1, 0] (![1 / 4, 1, 0] - ![-(1 / 4), 1, 0]) (1 / 2 * Spec.dist ![-(1 / 4), 1, 0] ![1 / 4, 1, 0] ^ 4)), none⟩ := by
  have hq : Spec.pointAt (![-(1 / 4), 1, 0] : Vec ℝ 3) (![1 / 4, 1, 0] - ![-(1 / 4), 1, 0]) (1 / 2) = ![0, 1, 0] := by
    funext i; fin_cases i <;> simp [Spec.pointAt]; norm_num
  have h1 : Spec.dist (0 : Vec ℝ 3) ![0, 1, 0] = 1 := by rw [spec_dist_eq]; simp [dotProduct, Fin.sum_univ_three]
  have hd : Spec.dist (![-(1 / 4), 1, 0] : Vec ℝ 3) ![1 / 4, 1, 0] = 1 / 2 := by
    rw [spec_dist_eq, Real.sqrt_eq_iff_mul_self_eq (dp_self_nonneg _) (by norm_num)]
    simp [dotProduct, Fin.sum_univ_three]; norm_num
  refine (C38_touch (by norm_num) 0 ![-(1 / 4), 1, 0] ![1 / 4, 1, 0] 1 (1 / 2) (by intro h; have := congrFun h 0; norm_num at this) ?_ ?_).1 ?_ ?_
  · rw [hq, h1]; exact exTangent (1 / 4)
  · rw [hq, h1]; norm_num
  · rw [hd]; norm_num
  · rw [hd]; norm_num

open Classical in
example : ∃ m b', exBox.build true 65536 16 = .ok (m, b') ∧ ¬ OutwardMesh m (cuboidCenter exBox.theCuboid) := by
  obtain ⟨m, b', hm, h⟩ := C82_exact true 65536 16 exBox (by decide) exBox_det.ne
  exact ⟨m, b', hm, fun ho => absurd (h.1 ho) (not_lt.2 exBox_det.le)⟩
end Examples

end Verif
