import Verif.Props.Intersect
import Mathlib.Algebra.QuadraticDiscriminant

/-
Properties C36–C38: intersections of a sphere with a line, a ray and a segment.
-/
namespace Verif
open Matrix
set_option linter.unusedSectionVars false

/-- the discriminant the code computes -/
def discr (c o d : Vec ℝ 3) (r : ℝ) : ℝ :=
  2 * (d ⬝ᵥ (o - c)) * (2 * (d ⬝ᵥ (o - c))) - 4 * (d ⬝ᵥ d) * ((o - c) ⬝ᵥ (o - c) - r * r)

theorem mem_sphere {c p : Vec ℝ 3} {r : ℝ} (hr : 0 ≤ r) : p ∈ Spec.sphere c r ↔ (p - c) ⬝ᵥ (p - c) = r * r := by
  show Spec.dist p c = r ↔ _
  rw [spec_dist_eq, Real.sqrt_eq_iff_mul_self_eq (dp_self_nonneg _) hr, eq_comm]

theorem sphere_sq (c o d : Vec ℝ 3) (t : ℝ) :
    (Spec.pointAt o d t - c) ⬝ᵥ (Spec.pointAt o d t - c) =
      (d ⬝ᵥ d) * (t * t) + 2 * (d ⬝ᵥ (o - c)) * t + (o - c) ⬝ᵥ (o - c) := by
  have : Spec.pointAt o d t - c = (o - c) + t • d := by rw [pointAt_eq]; abel
  rw [this, dp_add_self, dp_smul_self, dotProduct_smul, smul_eq_mul, dotProduct_comm (o - c) d]; ring

theorem sphere_quad {c o d : Vec ℝ 3} {r : ℝ} (hr : 0 ≤ r) (t : ℝ) :
    Spec.pointAt o d t ∈ Spec.sphere c r ↔
      (d ⬝ᵥ d) * (t * t) + 2 * (d ⬝ᵥ (o - c)) * t + ((o - c) ⬝ᵥ (o - c) - r * r) = 0 := by
  rw [mem_sphere hr, sphere_sq]; constructor <;> intro h <;> linarith

/-- the distance of the centre from the line and the discriminant -/
theorem discr_eq {c o d : Vec ℝ 3} (hd : d ≠ 0) (r : ℝ) {h : ℝ} (hh : Spec.IsDistance {c} (Spec.line o d) h) :
    discr c o d r = 4 * (d ⬝ᵥ d) * (r ^ 2 - h ^ 2) := by
  have hp := dp_self_pos hd
  have h1 := hh.unique (distVecLine_spec c o hd)
  rw [distVecLine, rejection_eq, length_eq] at h1
  have h2 : h ^ 2 = (vsub o c - (vsub o c ⬝ᵥ d / (d ⬝ᵥ d)) • d) ⬝ᵥ (vsub o c - (vsub o c ⬝ᵥ d / (d ⬝ᵥ d)) • d) := by
    rw [h1, Real.sq_sqrt (dp_self_nonneg _)]
  rw [h2, dp_sub_self, dp_smul_self, dotProduct_smul, smul_eq_mul, vsub_eq, discr, dotProduct_comm (o - c) d]
  field_simp; ring

theorem foot_dist {c o d : Vec ℝ 3} (hd : d ≠ 0) {h : ℝ} (hh : Spec.IsDistance {c} (Spec.line o d) h) :
    Spec.dist c (Spec.pointAt o d (-(d ⬝ᵥ (o - c)) / (d ⬝ᵥ d))) = h := by
  have h1 := hh.unique (distVecLine_spec c o hd)
  rw [h1, distVecLine, rejection_eq, length_eq, dist_comm', spec_dist_eq, vsub_eq, pointAt_eq, dotProduct_comm (o - c) d]
  congr 1
  have : o + (-(d ⬝ᵥ (o - c)) / (d ⬝ᵥ d)) • d - c = (o - c) - ((d ⬝ᵥ (o - c)) / (d ⬝ᵥ d)) • d := by
    rw [neg_div, neg_smul]; abel
  rw [this]

theorem roots_iff {c o d : Vec ℝ 3} (hd : d ≠ 0) {r : ℝ} (hr : 0 ≤ r) (hD : 0 ≤ discr c o d r) (t : ℝ) :
    Spec.pointAt o d t ∈ Spec.sphere c r ↔
      t = (-(2 * (d ⬝ᵥ (o - c))) + Real.sqrt (discr c o d r)) / (2 * (d ⬝ᵥ d)) ∨
      t = (-(2 * (d ⬝ᵥ (o - c))) - Real.sqrt (discr c o d r)) / (2 * (d ⬝ᵥ d)) := by
  rw [sphere_quad hr]
  refine quadratic_eq_zero_iff (dp_self_pos hd).ne' ?_ t
  rw [Real.mul_self_sqrt hD, discrim, discr]; ring

theorem no_roots {c o d : Vec ℝ 3} {r : ℝ} (hr : 0 ≤ r) (hD : discr c o d r < 0) (t : ℝ) :
    Spec.pointAt o d t ∉ Spec.sphere c r := by
  rw [sphere_quad hr]; intro h
  unfold discr at hD
  generalize 2 * (d ⬝ᵥ (o - c)) = B at *
  generalize (o - c) ⬝ᵥ (o - c) - r * r = C at *
  have : B * B - 4 * (d ⬝ᵥ d) * C = (2 * (d ⬝ᵥ d) * t + B) ^ 2 - 4 * (d ⬝ᵥ d) * ((d ⬝ᵥ d) * (t * t) + B * t + C) := by ring
  rw [this, h] at hD
  linarith [sq_nonneg (2 * (d ⬝ᵥ d) * t + B)]

section
variable [Tol ℝ] [LawfulTol ℝ]

/-- the three branches -/
theorem sphereLine_eval (c o d : Vec ℝ 3) (r ε : ℝ) (hε : 0 < ε) :
    intersectSphereLine ⟨c, r⟩ ⟨o, d⟩ ε =
      if Tol.isLess 0 (discr c o d r) ε then
        ⟨some (Spec.pointAt o d ((-(2 * (d ⬝ᵥ (o - c))) + Real.sqrt (discr c o d r)) / (2 * (d ⬝ᵥ d)))),
         some (Spec.pointAt o d ((-(2 * (d ⬝ᵥ (o - c))) - Real.sqrt (discr c o d r)) / (2 * (d ⬝ᵥ d))))⟩
      else if Tol.isLess (discr c o d r) 0 ε then ⟨none, none⟩
      else ⟨some (Spec.pointAt o d (-(2 * (d ⬝ᵥ (o - c))) / 2 * (d ⬝ᵥ d))), none⟩ := by
  unfold intersectSphereLine
  simp only [TolE.greater_eq hε, TolE.zero_eq hε, dot_eq, vsub_eq, vadd_eq, vscale_eq, sqrt_real]
  rw [← discr]
  rcases Tol.isLess 0 (discr c o d r) ε <;> rcases Tol.isLess (discr c o d r) 0 ε <;> simp [pointAt_eq]

theorem sphereRay_eval (c o d : Vec ℝ 3) (r ε : ℝ) (hε : 0 < ε) :
    intersectSphereRay ⟨c, r⟩ ⟨o, d⟩ ε =
      if Tol.isLess 0 (discr c o d r) ε then
        let t1 := (-(2 * (d ⬝ᵥ (o - c))) + Real.sqrt (discr c o d r)) / (2 * (d ⬝ᵥ d))
        let t2 := (-(2 * (d ⬝ᵥ (o - c))) - Real.sqrt (discr c o d r)) / (2 * (d ⬝ᵥ d))
        ⟨if Tol.isLess t1 0 ε then none else some (Spec.pointAt o d t1),
         if Tol.isLess t2 0 ε then none else some (Spec.pointAt o d t2)⟩
      else if Tol.isLess (discr c o d r) 0 ε then ⟨none, none⟩
      else
        let t := -(2 * (d ⬝ᵥ (o - c))) / 2 * (d ⬝ᵥ d)
        ⟨if Tol.isLess t 0 ε then none else some (Spec.pointAt o d t), none⟩ := by
  unfold intersectSphereRay
  simp only [TolE.greater_eq hε, TolE.greaterEq_eq hε, TolE.zero_eq hε, dot_eq, vsub_eq, vadd_eq, vscale_eq, sqrt_real]
  rw [← discr]
  generalize -(2 * (d ⬝ᵥ (o - c))) / 2 * (d ⬝ᵥ d) = t
  generalize (-(2 * (d ⬝ᵥ (o - c))) + Real.sqrt (discr c o d r)) / (2 * (d ⬝ᵥ d)) = t1
  generalize (-(2 * (d ⬝ᵥ (o - c))) - Real.sqrt (discr c o d r)) / (2 * (d ⬝ᵥ d)) = t2
  rcases Tol.isLess 0 (discr c o d r) ε <;> rcases Tol.isLess (discr c o d r) 0 ε <;> simp [pointAt_eq]
  · rcases Tol.isLess t 0 ε <;> simp
  all_goals rcases Tol.isLess t1 0 ε <;> rcases Tol.isLess t2 0 ε <;> simp

theorem sphereSegment_eval (c a b : Vec ℝ 3) (r ε : ℝ) (hε : 0 < ε) :
    intersectSphereSegment ⟨c, r⟩ ⟨a, b⟩ ε =
      let d := b - a
      if Tol.isLess 0 (discr c a d r) ε then
        let t1 := (-(2 * (d ⬝ᵥ (a - c))) + Real.sqrt (discr c a d r)) / (2 * (d ⬝ᵥ d))
        let t2 := (-(2 * (d ⬝ᵥ (a - c))) - Real.sqrt (discr c a d r)) / (2 * (d ⬝ᵥ d))
        ⟨if Tol.isLess t1 0 ε || Tol.isLess 1 t1 ε then none else some (Spec.pointAt a d t1),
         if Tol.isLess t2 0 ε || Tol.isLess 1 t2 ε then none else some (Spec.pointAt a d t2)⟩
      else if Tol.isLess (discr c a d r) 0 ε then ⟨none, none⟩
      else
        let t := -(2 * (d ⬝ᵥ (a - c))) / 2 * (d ⬝ᵥ d)
        ⟨if Tol.isLess t 0 ε || Tol.isLess 1 t ε then none else some (Spec.pointAt a d t), none⟩ := by
  unfold intersectSphereSegment
  simp only [TolE.greater_eq hε, TolE.greaterEq_eq hε, TolE.lessEq_eq hε, TolE.zero_eq hε, dot_eq, vsub_eq, vadd_eq,
    vscale_eq, sqrt_real]
  rw [← discr]
  set d := b - a
  set t1 := (-(2 * (d ⬝ᵥ (a - c))) + Real.sqrt (discr c a d r)) / (2 * (d ⬝ᵥ d))
  set t2 := (-(2 * (d ⬝ᵥ (a - c))) - Real.sqrt (discr c a d r)) / (2 * (d ⬝ᵥ d))
  generalize -(2 * (d ⬝ᵥ (a - c))) / 2 * (d ⬝ᵥ d) = t
  rcases Tol.isLess 0 (discr c a d r) ε <;> rcases Tol.isLess (discr c a d r) 0 ε <;> simp [pointAt_eq]
  · rcases Tol.isLess t 0 ε <;> rcases Tol.isLess 1 t ε <;> simp
  all_goals
    rcases Tol.isLess t1 0 ε <;> rcases Tol.isLess 1 t1 ε <;> rcases Tol.isLess t2 0 ε <;> rcases Tol.isLess 1 t2 ε <;> simp

/-! ### C36: lines -/

/-- the direction-free form of the band for a unit direction -/
theorem discr_unit {c o d : Vec ℝ 3} (hd : d ≠ 0) (r : ℝ) {h : ℝ} (hh : Spec.IsDistance {c} (Spec.line o d) h) :
    discr c o (normalize d) r = 4 * (r ^ 2 - h ^ 2) := by
  rw [← line_normalize o hd] at hh
  rw [discr_eq (normalize_ne_zero hd) r hh, normalize_dp_self hd, mul_one]

theorem pointAt_normalize (o d : Vec ℝ 3) (t : ℝ) :
    Spec.pointAt o (normalize d) t = Spec.pointAt o d (t * (length d)⁻¹) := by
  rw [normalize_eq, pointAt_eq, pointAt_eq, smul_smul]

theorem pointAt_inj {o d : Vec ℝ 3} (hd : d ≠ 0) {t s : ℝ} (h : Spec.pointAt o d t = Spec.pointAt o d s) : t = s := by
  rw [pointAt_eq, pointAt_eq, add_right_inj] at h
  have : (t - s) • d = 0 := by rw [sub_smul, h, sub_self]
  rcases smul_eq_zero.1 this with h | h
  · linarith
  · exact absurd h hd

/-- C36, a line that crosses: two different points, exactly the common points, the first further along the line. -/
theorem C36_crossing {ε : ℝ} (hε : 0 < ε) (c o d : Vec ℝ 3) (r h : ℝ) (hd : d ≠ 0) (hr : 0 ≤ r)
    (hh : Spec.IsDistance {c} (Spec.line o d) h) (hc : h ^ 2 + ε / 4 < r ^ 2) :
    ∃ p q, intersectSphereLine ⟨c, r⟩ (Line.make o d) ε = ⟨some p, some q⟩ ∧
      (∀ x, x ∈ Spec.line o d ∧ x ∈ Spec.sphere c r ↔ x = p ∨ x = q) ∧
      ∃ s t, t < s ∧ p = Spec.pointAt o d s ∧ q = Spec.pointAt o d t := by
  have hD := discr_unit hd r hh
  have hn := normalize_ne_zero hd
  have hl := length_pos hd
  have hpos : 0 < discr c o (normalize d) r := by rw [hD]; linarith
  rw [Line.make, sphereLine_eval _ _ _ _ _ hε, if_pos (TolE.less_true hε (by rw [hD]; linarith))]
  refine ⟨_, _, rfl, ?_, ?_⟩
  · intro x
    rw [← line_normalize o hd]
    constructor
    · rintro ⟨⟨t, rfl⟩, hx⟩
      rcases (roots_iff hn hr hpos.le t).1 hx with h | h <;> rw [← h] <;> simp
    · rintro (rfl | rfl)
      · exact ⟨⟨_, rfl⟩, (roots_iff hn hr hpos.le _).2 (Or.inl rfl)⟩
      · exact ⟨⟨_, rfl⟩, (roots_iff hn hr hpos.le _).2 (Or.inr rfl)⟩
  · refine ⟨_, _, ?_, pointAt_normalize o d _, pointAt_normalize o d _⟩
    refine mul_lt_mul_of_pos_right ?_ (inv_pos.2 hl)
    rw [normalize_dp_self hd]
    have := Real.sqrt_pos.2 hpos
    linarith

/-- C36, a line that touches: the one common point is reported. -/
theorem C36_touching {ε : ℝ} (hε : 0 < ε) (c o d : Vec ℝ 3) (r : ℝ) (hd : d ≠ 0) (hr : 0 ≤ r)
    (hh : Spec.IsDistance {c} (Spec.line o d) r) :
    ∃ p, intersectSphereLine ⟨c, r⟩ (Line.make o d) ε = ⟨some p, none⟩ ∧
      ∀ x, x ∈ Spec.line o d ∧ x ∈ Spec.sphere c r ↔ x = p := by
  have hD := discr_unit hd r hh
  rw [sub_self, mul_zero] at hD
  have hn := normalize_ne_zero hd
  have hu := normalize_dp_self hd
  rw [Line.make, sphereLine_eval _ _ _ _ _ hε, hD, if_neg (by rw [TolE.less_false hε (by linarith)]; simp),
    if_neg (by rw [TolE.less_false hε (by linarith)]; simp)]
  refine ⟨_, rfl, fun x => ?_⟩
  rw [← line_normalize o hd]
  have hroots := roots_iff (c := c) (o := o) hn hr hD.ge
  simp only [hD, Real.sqrt_zero, add_zero, sub_zero, or_self, hu, mul_one] at hroots ⊢
  constructor
  · rintro ⟨⟨t, rfl⟩, hx⟩; rw [(hroots t).1 hx]
  · rintro rfl; exact ⟨⟨_, rfl⟩, (hroots _).2 rfl⟩

/-- C36, a line that misses: nothing is reported. -/
theorem C36_missing {ε : ℝ} (hε : 0 < ε) (c o d : Vec ℝ 3) (r h : ℝ) (hd : d ≠ 0)
    (hh : Spec.IsDistance {c} (Spec.line o d) h) (hc : r ^ 2 + ε / 4 < h ^ 2) :
    intersectSphereLine ⟨c, r⟩ (Line.make o d) ε = ⟨none, none⟩ := by
  have hD := discr_unit hd r hh
  rw [Line.make, sphereLine_eval _ _ _ _ _ hε, if_neg (by rw [TolE.less_false hε (by linarith)]; simp),
    if_pos (TolE.less_true hε (by linarith))]

/-- C36, reading the answer: two points are exactly the common points; no point means there is no common point; a single
point is the point of the line nearest to the centre, and the line touches the sphere up to the tolerance. -/
theorem C36_reading {ε : ℝ} (hε : 0 < ε) (c o d : Vec ℝ 3) (r h : ℝ) (hd : d ≠ 0) (hr : 0 ≤ r)
    (hh : Spec.IsDistance {c} (Spec.line o d) h) :
    (∀ p q, intersectSphereLine ⟨c, r⟩ (Line.make o d) ε = ⟨some p, some q⟩ →
      ∀ x, x ∈ Spec.line o d ∧ x ∈ Spec.sphere c r ↔ x = p ∨ x = q) ∧
    (intersectSphereLine ⟨c, r⟩ (Line.make o d) ε = ⟨none, none⟩ → ∀ x ∈ Spec.line o d, x ∉ Spec.sphere c r) ∧
    (∀ p, intersectSphereLine ⟨c, r⟩ (Line.make o d) ε = ⟨some p, none⟩ →
      p ∈ Spec.line o d ∧ Spec.dist c p = h ∧ |h ^ 2 - r ^ 2| ≤ ε / 4) ∧
    (∀ q, intersectSphereLine ⟨c, r⟩ (Line.make o d) ε ≠ ⟨none, some q⟩) := by
  have hD := discr_unit hd r hh
  have hn := normalize_ne_zero hd
  have hu := normalize_dp_self hd
  have hh' := hh
  rw [← line_normalize o hd] at hh' ⊢
  rw [Line.make, sphereLine_eval _ _ _ _ _ hε]
  rcases h1 : Tol.isLess 0 (discr c o (normalize d) r) ε with _ | _
  · rcases h2 : Tol.isLess (discr c o (normalize d) r) 0 ε with _ | _
    · simp only [Bool.false_eq_true, if_false]
      refine ⟨by simp, by simp, ?_, by simp⟩
      intro p hp
      simp only [SphereIntersection.mk.injEq, Option.some.injEq, and_true] at hp
      subst hp
      have h1 := TolE.of_not_less hε h1
      have h2 := TolE.of_not_less hε h2
      rw [hD] at h1 h2
      refine ⟨⟨_, rfl⟩, ?_, ?_⟩
      · have := foot_dist hn hh'
        rw [hu, div_one] at this
        rw [hu, mul_one]
        rw [← this]; congr 2; ring
      · rw [abs_le]; constructor <;> linarith
    · simp only [Bool.false_eq_true, if_false, if_true]
      refine ⟨by simp, ?_, by simp, by simp⟩
      rintro - x ⟨t, rfl⟩
      have h2 := TolE.of_less hε h2
      exact no_roots hr (by linarith) t
  · simp only [if_true]
    refine ⟨?_, by simp, by simp, by simp⟩
    intro p q hp x
    simp only [SphereIntersection.mk.injEq, Option.some.injEq] at hp
    obtain ⟨rfl, rfl⟩ := hp
    have h1 := TolE.of_less hε h1
    have hpos : 0 ≤ discr c o (normalize d) r := by linarith
    constructor
    · rintro ⟨⟨t, rfl⟩, hx⟩
      rcases (roots_iff hn hr hpos t).1 hx with h | h <;> rw [← h] <;> simp
    · rintro (rfl | rfl)
      · exact ⟨⟨_, rfl⟩, (roots_iff hn hr hpos _).2 (Or.inl rfl)⟩
      · exact ⟨⟨_, rfl⟩, (roots_iff hn hr hpos _).2 (Or.inr rfl)⟩

/-- C36, `hasIntersection`: if it is false there is no common point, if it is true the line touches or crosses the sphere up to tolerance. -/
theorem C36_hasIntersection {ε : ℝ} (hε : 0 < ε) (c o d : Vec ℝ 3) (r h : ℝ) (hd : d ≠ 0) (hr : 0 ≤ r)
    (hh : Spec.IsDistance {c} (Spec.line o d) h) :
    ((intersectSphereLine ⟨c, r⟩ (Line.make o d) ε).hasIntersection = false → ∀ x ∈ Spec.line o d, x ∉ Spec.sphere c r) ∧
    ((intersectSphereLine ⟨c, r⟩ (Line.make o d) ε).hasIntersection = true → h ^ 2 ≤ r ^ 2 + ε / 4) := by
  obtain ⟨_, h2, _, _⟩ := C36_reading hε c o d r h hd hr hh
  constructor
  · intro hi
    apply h2
    rcases e : intersectSphereLine ⟨c, r⟩ (Line.make o d) ε with ⟨p, q⟩
    rw [e] at hi
    cases p <;> cases q <;> simp_all [SphereIntersection.hasIntersection]
  · intro hi
    by_contra hc
    rw [C36_missing hε c o d r h hd hh (not_le.1 hc)] at hi
    simp [SphereIntersection.hasIntersection] at hi

/-! ### C37: rays -/

/-- C37 soundness: a reported point lies on the ray (up to `ε` behind its origin) and on the sphere: exactly if the carrier
line crosses, and with squared distance off by at most `ε/4` if it touches up to tolerance. -/
theorem C37_sound (dbg : Bool) {ε : ℝ} (hε : 0 < ε) (c o d : Vec ℝ 3) (r h : ℝ) (hd : d ≠ 0) (hr : 0 ≤ r) (ray : Ray ℝ 3)
    (hray : Ray.make dbg o d = .ok ray) (hh : Spec.IsDistance {c} (Spec.line o d) h) (p : Vec ℝ 3)
    (hp : (intersectSphereRay ⟨c, r⟩ ray ε).first = some p ∨ (intersectSphereRay ⟨c, r⟩ ray ε).second = some p) :
    (∃ t, -ε ≤ t ∧ p = Spec.pointAt o ray.direction t) ∧ |Spec.dist p c ^ 2 - r ^ 2| ≤ ε / 4 ∧
      (h ^ 2 + ε / 4 < r ^ 2 → p ∈ Spec.sphere c r) := by
  cases Ray.make_eq hray
  have hD := discr_unit hd r hh
  have hn := normalize_ne_zero hd
  have hu := normalize_dp_self hd
  have hh' := hh
  rw [← line_normalize o hd] at hh'
  rw [sphereRay_eval _ _ _ _ _ hε] at hp
  have exact_case : ∀ t, 0 ≤ discr c o (normalize d) r → Tol.isLess t 0 ε = false →
      Spec.pointAt o (normalize d) t ∈ Spec.sphere c r →
      (∃ s, -ε ≤ s ∧ Spec.pointAt o (normalize d) t = Spec.pointAt o (normalize d) s) ∧
      |Spec.dist (Spec.pointAt o (normalize d) t) c ^ 2 - r ^ 2| ≤ ε / 4 ∧
      (h ^ 2 + ε / 4 < r ^ 2 → Spec.pointAt o (normalize d) t ∈ Spec.sphere c r) := by
    intro t h0 ht hs
    have hs' : Spec.dist (Spec.pointAt o (normalize d) t) c = r := hs
    refine ⟨⟨t, by linarith [TolE.of_not_less hε ht], rfl⟩, ?_, fun _ => hs⟩
    rw [hs', sub_self, abs_zero]; linarith
  rcases h1 : Tol.isLess 0 (discr c o (normalize d) r) ε with _ | _
  · rcases h2 : Tol.isLess (discr c o (normalize d) r) 0 ε with _ | _
    · simp only [h1, h2, Bool.false_eq_true, if_false, reduceCtorEq, or_false] at hp
      split at hp
      · cases hp
      rename_i ht
      cases hp
      have h1 := TolE.of_not_less hε h1
      have h2 := TolE.of_not_less hε h2
      rw [hD] at h1 h2
      refine ⟨⟨_, ?_, rfl⟩, ?_, ?_⟩
      · linarith [TolE.of_not_less hε (eq_false_of_ne_true ht)]
      · have := foot_dist hn hh'
        rw [hu, div_one] at this
        rw [hu, mul_one, dist_comm', show -(2 * normalize d ⬝ᵥ (o - c)) / 2 = -(normalize d ⬝ᵥ (o - c)) by ring, this, abs_le]
        constructor <;> linarith
      · intro hc; linarith
    · simp [h1, h2] at hp
  · have h0 := TolE.of_less hε h1
    have hpos : 0 ≤ discr c o (normalize d) r := by linarith
    simp only [h1, if_true] at hp
    rcases hp with hp | hp
    · split at hp
      · cases hp
      · rename_i ht; cases hp
        exact exact_case _ hpos (eq_false_of_ne_true ht) ((roots_iff hn hr hpos _).2 (Or.inl rfl))
    · split at hp
      · cases hp
      · rename_i ht; cases hp
        exact exact_case _ hpos (eq_false_of_ne_true ht) ((roots_iff hn hr hpos _).2 (Or.inr rfl))

/-- C37 completeness: when the carrier line clearly crosses or exactly touches the sphere, every common point of ray and
sphere is reported. -/
theorem C37_complete (dbg : Bool) {ε : ℝ} (hε : 0 < ε) (c o d : Vec ℝ 3) (r h : ℝ) (hd : d ≠ 0) (hr : 0 ≤ r) (ray : Ray ℝ 3)
    (hray : Ray.make dbg o d = .ok ray) (hh : Spec.IsDistance {c} (Spec.line o d) h)
    (hc : h ^ 2 + ε / 4 < r ^ 2 ∨ h = r) (x : Vec ℝ 3) (hx : x ∈ Spec.ray o d) (hs : x ∈ Spec.sphere c r) :
    (intersectSphereRay ⟨c, r⟩ ray ε).first = some x ∨ (intersectSphereRay ⟨c, r⟩ ray ε).second = some x := by
  cases Ray.make_eq hray
  have hD := discr_unit hd r hh
  have hn := normalize_ne_zero hd
  have hu := normalize_dp_self hd
  rw [← ray_normalize o hd] at hx
  obtain ⟨t, ht0, rfl⟩ := hx
  have htl : Tol.isLess t 0 ε = false := TolE.less_false hε (by linarith)
  rw [sphereRay_eval _ _ _ _ _ hε]
  rcases hc with hc | hc
  · have hpos : 0 ≤ discr c o (normalize d) r := by linarith
    rw [if_pos (TolE.less_true hε (by linarith))]
    simp only
    rcases (roots_iff hn hr hpos t).1 hs with h | h
    · left; rw [← h, if_neg (by simp [htl])]
    · right; rw [← h, if_neg (by simp [htl])]
  · rw [hc, sub_self, mul_zero] at hD
    rw [if_neg (by rw [TolE.less_false hε (by linarith)]; simp), if_neg (by rw [TolE.less_false hε (by linarith)]; simp)]
    have hroots := (roots_iff (c := c) (o := o) hn hr hD.ge t).1 hs
    simp only [hD, Real.sqrt_zero, add_zero, sub_zero, or_self, hu, mul_one] at hroots ⊢
    left; rw [← hroots, if_neg (by simp [htl])]

/-- C37 inside the tolerance band, where at most one point is reported: a common point further than `√ε/2` from the
ray's origin is within `√ε/2` of the reported point. -/
theorem C37_near (dbg : Bool) {ε : ℝ} (hε : 0 < ε) (c o d : Vec ℝ 3) (r : ℝ) (hd : d ≠ 0) (hr : 0 ≤ r) (ray : Ray ℝ 3)
    (hray : Ray.make dbg o d = .ok ray)
    (x : Vec ℝ 3) (hx : x ∈ Spec.ray o d) (hs : x ∈ Spec.sphere c r) (hfar : Real.sqrt ε / 2 < Spec.dist o x) :
    ∃ p, ((intersectSphereRay ⟨c, r⟩ ray ε).first = some p ∨ (intersectSphereRay ⟨c, r⟩ ray ε).second = some p) ∧
      Spec.dist x p ≤ Real.sqrt ε / 2 := by
  cases Ray.make_eq hray
  have hn := normalize_ne_zero hd
  have hu := normalize_dp_self hd
  have hse := Real.sqrt_nonneg ε
  rw [← ray_normalize o hd] at hx
  obtain ⟨t, ht0, rfl⟩ := hx
  have htl : Tol.isLess t 0 ε = false := TolE.less_false hε (by linarith)
  have hself : ∀ y : Vec ℝ 3, Spec.dist y y = 0 := fun y => by rw [spec_dist_eq]; simp
  have hdist : Spec.dist o (Spec.pointAt o (normalize d) t) = t := by
    rw [dist_comm', spec_dist_eq, pointAt_eq, add_sub_cancel_left, dp_smul_self, hu, mul_one, Real.sqrt_sq ht0]
  rw [hdist] at hfar
  rw [sphereRay_eval _ _ _ _ _ hε]
  have hnn : 0 ≤ discr c o (normalize d) r := by
    by_contra hc; exact no_roots hr (not_le.1 hc) t hs
  have hroots := (roots_iff hn hr hnn t).1 hs
  rcases h1 : Tol.isLess 0 (discr c o (normalize d) r) ε with _ | _
  · have hle := TolE.of_not_less hε h1
    have hsq : Real.sqrt (discr c o (normalize d) r) ≤ Real.sqrt ε := Real.sqrt_le_sqrt (by linarith)
    have hsn := Real.sqrt_nonneg (discr c o (normalize d) r)
    rw [TolE.less_false hε (by linarith)]
    simp only [Bool.false_eq_true, if_false, reduceCtorEq, or_false]
    simp only [hu, mul_one] at hroots ⊢
    set D := Real.sqrt (discr c o (normalize d) r)
    set B := -(2 * normalize d ⬝ᵥ (o - c))
    have hb : |t - B / 2| ≤ Real.sqrt ε / 2 := by
      rw [abs_le]; rcases hroots with h | h <;> rw [h] <;> constructor <;> linarith
    refine ⟨Spec.pointAt o (normalize d) (B / 2), ?_, ?_⟩
    · rw [if_neg]
      rw [TolE.less_false hε]; · simp
      have := (abs_le.1 hb).2; linarith
    · rw [spec_dist_eq, pointAt_eq, pointAt_eq, add_sub_add_left_eq_sub, ← sub_smul, dp_smul_self, hu, mul_one, Real.sqrt_sq_eq_abs]
      exact hb
  · simp only [if_true]
    refine ⟨_, ?_, (hself _).trans_le (by positivity)⟩
    rcases hroots with h | h
    · left; rw [← h, if_neg (by simp [htl])]
    · right; rw [← h, if_neg (by simp [htl])]

/-- C37, `hasIntersection`: true if ray and sphere have a common point (carrier line crossing or touching, or the point further than `√ε/2`
from the ray's origin); if it is true, the ray, extended by `ε` backwards, meets the sphere up to the tolerance. -/
theorem C37_hasIntersection (dbg : Bool) {ε : ℝ} (hε : 0 < ε) (c o d : Vec ℝ 3) (r h : ℝ) (hd : d ≠ 0) (hr : 0 ≤ r) (ray : Ray ℝ 3)
    (hray : Ray.make dbg o d = .ok ray) (hh : Spec.IsDistance {c} (Spec.line o d) h) :
    (∀ x ∈ Spec.ray o d, x ∈ Spec.sphere c r → (h ^ 2 + ε / 4 < r ^ 2 ∨ h = r) ∨ Real.sqrt ε / 2 < Spec.dist o x →
      (intersectSphereRay ⟨c, r⟩ ray ε).hasIntersection = true) ∧
    ((intersectSphereRay ⟨c, r⟩ ray ε).hasIntersection = true →
      ∃ t, -ε ≤ t ∧ |Spec.dist (Spec.pointAt o ray.direction t) c ^ 2 - r ^ 2| ≤ ε / 4) := by
  constructor
  · intro x hx hs hc
    rcases hc with hc | hc
    · rcases C37_complete dbg hε c o d r h hd hr ray hray hh hc x hx hs with e | e <;> simp [SphereIntersection.hasIntersection, e]
    · obtain ⟨p, e | e, _⟩ := C37_near dbg hε c o d r hd hr ray hray x hx hs hc <;> simp [SphereIntersection.hasIntersection, e]
  · intro hi
    simp only [SphereIntersection.hasIntersection, Bool.or_eq_true, Option.isSome_iff_exists] at hi
    rcases hi with ⟨p, hp⟩ | ⟨p, hp⟩
    · obtain ⟨⟨t, h1, rfl⟩, h2, _⟩ := C37_sound dbg hε c o d r h hd hr ray hray hh p (Or.inl hp)
      exact ⟨t, h1, h2⟩
    · obtain ⟨⟨t, h1, rfl⟩, h2, _⟩ := C37_sound dbg hε c o d r h hd hr ray hray hh p (Or.inr hp)
      exact ⟨t, h1, h2⟩

/-! ### C38: segments -/

/-- C38 soundness: a reported point lies on the segment (up to the parameter tolerance), and, when the carrier line
clearly crosses the sphere, on the sphere. Missing: the touching case, see `C38_counterexample_unsound`. -/
theorem C38_sound_partial {ε : ℝ} (hε : 0 < ε) (c a b : Vec ℝ 3) (r h : ℝ) (hab : a ≠ b) (hr : 0 ≤ r)
    (hh : Spec.IsDistance {c} (Spec.line a (b - a)) h) (p : Vec ℝ 3)
    (hp : (intersectSphereSegment ⟨c, r⟩ ⟨a, b⟩ ε).first = some p ∨ (intersectSphereSegment ⟨c, r⟩ ⟨a, b⟩ ε).second = some p) :
    p ∈ Spec.segmentUpTo ε a b ∧ (ε < 4 * Spec.dist a b ^ 2 * (r ^ 2 - h ^ 2) → p ∈ Spec.sphere c r) := by
  have hd : b - a ≠ 0 := fun e => hab (sub_eq_zero.1 e).symm
  have hD := discr_eq hd r hh
  have hlen : (b - a) ⬝ᵥ (b - a) = Spec.dist a b ^ 2 := by
    rw [dist_comm', spec_dist_eq, Real.sq_sqrt (dp_self_nonneg _)]
  rw [hlen] at hD
  rw [sphereSegment_eval _ _ _ _ _ hε] at hp
  simp only at hp
  have fin : ∀ t, ¬ (Tol.isLess t 0 ε || Tol.isLess 1 t ε) = true → Spec.pointAt a (b - a) t ∈ Spec.segmentUpTo ε a b := by
    intro t ht
    simp only [Bool.or_eq_true, not_or, Bool.not_eq_true] at ht
    exact ⟨t, by linarith [TolE.of_not_less hε ht.1], TolE.of_not_less hε ht.2, rfl⟩
  rcases h1 : Tol.isLess 0 (discr c a (b - a) r) ε with _ | _
  · have h1' := TolE.of_not_less hε h1
    rcases h2 : Tol.isLess (discr c a (b - a) r) 0 ε with _ | _
    · simp only [h1, h2, Bool.false_eq_true, if_false, reduceCtorEq, or_false] at hp
      split at hp
      · cases hp
      rename_i ht; cases hp
      exact ⟨fin _ ht, fun hc => by linarith⟩
    · simp [h1, h2] at hp
  · have h0 := TolE.of_less hε h1
    have hpos : 0 ≤ discr c a (b - a) r := by linarith
    simp only [h1, if_true] at hp
    rcases hp with hp | hp
    · split at hp
      · cases hp
      · rename_i ht; cases hp
        exact ⟨fin _ ht, fun _ => (roots_iff hd hr hpos _).2 (Or.inl rfl)⟩
    · split at hp
      · cases hp
      · rename_i ht; cases hp
        exact ⟨fin _ ht, fun _ => (roots_iff hd hr hpos _).2 (Or.inr rfl)⟩

/-- C38 completeness when the carrier line clearly crosses: every common point is reported. Missing: the touching case,
see `C38_counterexample_missed`. -/
theorem C38_complete_partial {ε : ℝ} (hε : 0 < ε) (c a b : Vec ℝ 3) (r h : ℝ) (hab : a ≠ b) (hr : 0 ≤ r)
    (hh : Spec.IsDistance {c} (Spec.line a (b - a)) h) (hc : ε < 4 * Spec.dist a b ^ 2 * (r ^ 2 - h ^ 2))
    (x : Vec ℝ 3) (hx : x ∈ Spec.segment a b) (hs : x ∈ Spec.sphere c r) :
    (intersectSphereSegment ⟨c, r⟩ ⟨a, b⟩ ε).first = some x ∨ (intersectSphereSegment ⟨c, r⟩ ⟨a, b⟩ ε).second = some x := by
  have hd : b - a ≠ 0 := fun e => hab (sub_eq_zero.1 e).symm
  have hD := discr_eq hd r hh
  have hlen : (b - a) ⬝ᵥ (b - a) = Spec.dist a b ^ 2 := by
    rw [dist_comm', spec_dist_eq, Real.sq_sqrt (dp_self_nonneg _)]
  rw [hlen] at hD
  have hpos : 0 ≤ discr c a (b - a) r := by linarith
  obtain ⟨t, ht0, ht1, rfl⟩ := hx
  rw [seg_pointAt] at hs ⊢
  rw [sphereSegment_eval _ _ _ _ _ hε]
  simp only
  rw [if_pos (TolE.less_true hε (by linarith))]
  have hin : (Tol.isLess t 0 ε || Tol.isLess 1 t ε) = false := by
    rw [TolE.less_false hε (by linarith), TolE.less_false hε (by linarith)]; rfl
  rcases (roots_iff hd hr hpos t).1 hs with h | h
  · left; simp only; rw [← h, if_neg (by simp [hin])]
  · right; simp only; rw [← h, if_neg (by simp [hin])]

/-- C38, `hasIntersection` for a carrier line that clearly crosses: it is true if sphere and segment have a common point, and if it is true
the sphere meets the segment extended by the tolerance. -/
theorem C38_hasIntersection_partial {ε : ℝ} (hε : 0 < ε) (c a b : Vec ℝ 3) (r h : ℝ) (hab : a ≠ b) (hr : 0 ≤ r)
    (hh : Spec.IsDistance {c} (Spec.line a (b - a)) h) (hc : ε < 4 * Spec.dist a b ^ 2 * (r ^ 2 - h ^ 2)) :
    ((∃ x ∈ Spec.segment a b, x ∈ Spec.sphere c r) → (intersectSphereSegment ⟨c, r⟩ ⟨a, b⟩ ε).hasIntersection = true) ∧
    ((intersectSphereSegment ⟨c, r⟩ ⟨a, b⟩ ε).hasIntersection = true → ∃ x ∈ Spec.segmentUpTo ε a b, x ∈ Spec.sphere c r) := by
  constructor
  · rintro ⟨x, hx, hs⟩
    rcases C38_complete_partial hε c a b r h hab hr hh hc x hx hs with e | e <;> simp [SphereIntersection.hasIntersection, e]
  · intro hi
    simp only [SphereIntersection.hasIntersection, Bool.or_eq_true, Option.isSome_iff_exists] at hi
    rcases hi with ⟨p, hp⟩ | ⟨p, hp⟩
    · have := C38_sound_partial hε c a b r h hab hr hh p (Or.inl hp)
      exact ⟨p, this.1, this.2 hc⟩
    · have := C38_sound_partial hε c a b r h hab hr hh p (Or.inr hp)
      exact ⟨p, this.1, this.2 hc⟩

/-- C38, a carrier line that clearly misses: nothing is reported (and there is no common point). -/
theorem C38_missing_partial {ε : ℝ} (hε : 0 < ε) (c a b : Vec ℝ 3) (r h : ℝ) (hab : a ≠ b) (hr : 0 ≤ r)
    (hh : Spec.IsDistance {c} (Spec.line a (b - a)) h) (hc : ε < 4 * Spec.dist a b ^ 2 * (h ^ 2 - r ^ 2)) :
    intersectSphereSegment ⟨c, r⟩ ⟨a, b⟩ ε = ⟨none, none⟩ ∧ ∀ x ∈ Spec.segment a b, x ∉ Spec.sphere c r := by
  have hd : b - a ≠ 0 := fun e => hab (sub_eq_zero.1 e).symm
  have hD := discr_eq hd r hh
  have hlen : (b - a) ⬝ᵥ (b - a) = Spec.dist a b ^ 2 := by
    rw [dist_comm', spec_dist_eq, Real.sq_sqrt (dp_self_nonneg _)]
  rw [hlen] at hD
  constructor
  · rw [sphereSegment_eval _ _ _ _ _ hε]
    simp only
    rw [if_neg (by rw [TolE.less_false hε (by linarith)]; simp), if_pos (TolE.less_true hε (by linarith))]
  · rintro x ⟨t, -, -, rfl⟩
    rw [seg_pointAt]
    exact no_roots hr (by linarith) t

theorem tangent_eval {ε : ℝ} (hε : 0 < ε) (k : ℝ) :
    intersectSphereSegment ⟨0, 1⟩ ⟨![-k, 1, 0], ![k, 1, 0]⟩ ε =
      let t := 8 * k ^ 4
      ⟨if Tol.isLess t 0 ε || Tol.isLess 1 t ε then none else some ![-k + t * (2 * k), 1, 0], none⟩ := by
  have hD : discr 0 ![-k, 1, 0] (![k, 1, 0] - ![-k, 1, 0]) 1 = 0 := by
    simp [discr, dotProduct, Fin.sum_univ_three]; ring
  rw [sphereSegment_eval _ _ _ _ _ hε]
  simp only
  rw [hD, if_neg (by rw [TolE.less_false hε (by linarith)]; simp), if_neg (by rw [TolE.less_false hε (by linarith)]; simp)]
  have ht : -(2 * (![k, 1, 0] - ![-k, 1, 0]) ⬝ᵥ (![-k, 1, 0] - (0 : Vec ℝ 3))) / 2 *
      ((![k, 1, 0] - ![-k, 1, 0]) ⬝ᵥ (![k, 1, 0] - ![-k, 1, 0])) = 8 * k ^ 4 := by
    simp [dotProduct, Fin.sum_univ_three]; ring
  rw [ht]
  have hp : Spec.pointAt ![-k, 1, 0] (![k, 1, 0] - ![-k, 1, 0]) (8 * k ^ 4) = ![-k + 8 * k ^ 4 * (2 * k), 1, 0] := by
    funext i; fin_cases i
    · show -k + 8 * k ^ 4 * (k - -k) = -k + 8 * k ^ 4 * (2 * k); ring
    · simp [Spec.pointAt]
    · simp [Spec.pointAt]
  rw [hp]

/-- C38 is false: a segment that touches the sphere in its midpoint (0,1,0) reports nothing. -/
theorem C38_counterexample_missed {ε : ℝ} (hε : 0 < ε) (hs : ε < 100) :
    (![0, 1, 0] : Vec ℝ 3) ∈ Spec.segment ![-2, 1, 0] ![2, 1, 0] ∧ (![0, 1, 0] : Vec ℝ 3) ∈ Spec.sphere 0 1 ∧
      intersectSphereSegment ⟨0, 1⟩ ⟨![-2, 1, 0], ![2, 1, 0]⟩ ε = ⟨none, none⟩ := by
  refine ⟨⟨1 / 2, by norm_num, by norm_num, ?_⟩, ?_, ?_⟩
  · funext i; fin_cases i <;> simp; norm_num
  · rw [mem_sphere zero_le_one]; simp [dotProduct, Fin.sum_univ_three]
  · rw [tangent_eval hε]
    simp only
    rw [if_pos]
    rw [TolE.less_true (a := 1) hε (by norm_num; linarith), Bool.or_true]

/-- C38 is false: a segment that touches the sphere in its midpoint reports a point well off the sphere. -/
theorem C38_counterexample_unsound {ε : ℝ} (hε : 0 < ε) :
    ∃ p : Vec ℝ 3, (intersectSphereSegment ⟨0, 1⟩ ⟨![-1 / 4, 1, 0], ![1 / 4, 1, 0]⟩ ε).first = some p ∧ 1 / 50 < Spec.dist p 0 - 1 := by
  refine ⟨![-(1 / 4) + 8 * (1 / 4) ^ 4 * (2 * (1 / 4)), 1, 0], ?_, ?_⟩
  · have := tangent_eval hε (1 / 4)
    rw [neg_div', ] at *
    rw [this]
    simp only
    rw [if_neg]
    rw [TolE.less_false hε (by norm_num; linarith), TolE.less_false hε (by norm_num; linarith)]; simp
  · rw [lt_sub_iff_add_lt, spec_dist_eq]
    apply Real.lt_sqrt_of_sq_lt
    simp [dotProduct, Fin.sum_univ_three]; norm_num
end

section Examples
attribute [local instance] realTol realTol_lawful

/-- A line at distance 3 from the centre; it crosses a sphere of radius 5, touches one of radius 3, misses one of radius 2. -/
theorem ex_line_dist : Spec.IsDistance {(0 : Vec ℝ 3)} (Spec.line ![0, 3, 0] ![1, 0, 0]) 3 := by
  have := distVecLine_spec (0 : Vec ℝ 3) ![0, 3, 0] ex_x_ne
  have e : distVecLine (0 : Vec ℝ 3) ⟨![0, 3, 0], ![1, 0, 0]⟩ = 3 := by
    rw [distVecLine, rejection_eq, length_eq]; simp [dotProduct, Fin.sum_univ_three, vsub_eq]
  rwa [e] at this
example := C36_crossing (ε := 1 / 1000) (by norm_num) 0 ![0, 3, 0] ![1, 0, 0] 5 3 ex_x_ne (by norm_num) ex_line_dist (by norm_num)
example := C36_touching (ε := 1 / 1000) (by norm_num) 0 ![0, 3, 0] ![1, 0, 0] 3 ex_x_ne (by norm_num) ex_line_dist
example := C36_missing (ε := 1 / 1000) (by norm_num) 0 ![0, 3, 0] ![1, 0, 0] 2 3 ex_x_ne ex_line_dist (by norm_num)
example := C36_hasIntersection (ε := 1 / 1000) (by norm_num) 0 ![0, 3, 0] ![1, 0, 0] 5 3 ex_x_ne (by norm_num) ex_line_dist
example (ray : Ray ℝ 3) (h : Ray.make false ![0, 3, 0] ![1, 0, 0] = .ok ray) :=
  C37_hasIntersection false (ε := 1 / 1000) (by norm_num) 0 ![0, 3, 0] ![1, 0, 0] 5 3 ex_x_ne (by norm_num) ray h ex_line_dist
/-- C37: (4,3,0) lies on the ray and on the sphere of radius 5 -/
example : (![4, 3, 0] : Vec ℝ 3) ∈ Spec.ray ![0, 3, 0] ![1, 0, 0] ∧ (![4, 3, 0] : Vec ℝ 3) ∈ Spec.sphere 0 5 := by
  refine ⟨⟨4, by norm_num, ?_⟩, ?_⟩
  · funext i; fin_cases i <;> simp [Spec.pointAt]
  · rw [mem_sphere (by norm_num)]; simp [dotProduct, Fin.sum_univ_three]; norm_num
/-- C38: the same point inside a segment -/
example : (![4, 3, 0] : Vec ℝ 3) ∈ Spec.segment ![0, 3, 0] ![8, 3, 0] := by
  refine ⟨1 / 2, by norm_num, by norm_num, ?_⟩
  funext i; fin_cases i <;> simp; norm_num
/-! The theorems applied: the sphere of radius 5, the ray from (0, 3, 0) and the segment to (8, 3, 0). -/
theorem ex_on_ray5 : (![4, 3, 0] : Vec ℝ 3) ∈ Spec.ray ![0, 3, 0] ![1, 0, 0] :=
  ⟨4, by norm_num, by funext i; fin_cases i <;> simp [Spec.pointAt]⟩
theorem ex_on_sphere5 : (![4, 3, 0] : Vec ℝ 3) ∈ Spec.sphere 0 5 := by
  rw [mem_sphere (by norm_num)]; simp [dotProduct, Fin.sum_univ_three]; norm_num
theorem ex_on_seg5 : (![4, 3, 0] : Vec ℝ 3) ∈ Spec.segment ![0, 3, 0] ![8, 3, 0] :=
  ⟨1 / 2, by norm_num, by norm_num, by funext i; fin_cases i <;> simp; norm_num⟩
theorem ex_ray5 : ∃ r, Ray.make true (![0, 3, 0] : Vec ℝ 3) ![1, 0, 0] = .ok r := by
  refine ⟨_, Ray.make_ok ?_⟩
  rw [length_eq]; simp [dotProduct, Fin.sum_univ_three, ex_eps]; norm_num
theorem ex_seg_ne5 : (![0, 3, 0] : Vec ℝ 3) ≠ ![8, 3, 0] := by intro h; have := congrFun h 0; simp at this
theorem ex_seg_dist5 : Spec.dist (![0, 3, 0] : Vec ℝ 3) ![8, 3, 0] ^ 2 = 64 := by
  rw [spec_dist_eq, Real.sq_sqrt] <;> simp [dotProduct, Fin.sum_univ_three]; norm_num
theorem ex_seg_line5 : Spec.IsDistance {(0 : Vec ℝ 3)} (Spec.line ![0, 3, 0] (![8, 3, 0] - ![0, 3, 0])) 3 := by
  have := distVecLine_spec (0 : Vec ℝ 3) ![0, 3, 0] (n := ![8, 3, 0] - ![0, 3, 0]) (by intro h; have := congrFun h 0; simp at this)
  have e : distVecLine (0 : Vec ℝ 3) ⟨![0, 3, 0], ![8, 3, 0] - ![0, 3, 0]⟩ = 3 := by
    rw [distVecLine, rejection_eq, length_eq]; simp [dotProduct, Fin.sum_univ_three, vsub_eq]
  rwa [e] at this

example (p q : Vec ℝ 3) (h : intersectSphereLine ⟨0, 5⟩ (Line.make ![0, 3, 0] ![1, 0, 0]) (1 / 1000) = ⟨some p, some q⟩) :
    (![4, 3, 0] : Vec ℝ 3) = p ∨ (![4, 3, 0] : Vec ℝ 3) = q := by
  obtain ⟨t, -, ht⟩ := ex_on_ray5
  exact ((C36_reading (by norm_num) 0 ![0, 3, 0] ![1, 0, 0] 5 3 ex_x_ne (by norm_num) ex_line_dist).1 p q h _).1 ⟨⟨t, ht⟩, ex_on_sphere5⟩
example : ∃ ray, Ray.make true (![0, 3, 0] : Vec ℝ 3) ![1, 0, 0] = .ok ray ∧
    ((intersectSphereRay ⟨0, 5⟩ ray (1 / 1000)).first = some ![4, 3, 0] ∨ (intersectSphereRay ⟨0, 5⟩ ray (1 / 1000)).second = some ![4, 3, 0]) := by
  obtain ⟨r, hr⟩ := ex_ray5
  exact ⟨r, hr, C37_complete true (by norm_num) 0 _ _ 5 3 ex_x_ne (by norm_num) r hr ex_line_dist (.inl (by norm_num)) _ ex_on_ray5 ex_on_sphere5⟩
example (ray : Ray ℝ 3) (hr : Ray.make true (![0, 3, 0] : Vec ℝ 3) ![1, 0, 0] = .ok ray) (p : Vec ℝ 3)
    (hp : (intersectSphereRay ⟨0, 5⟩ ray (1 / 1000)).first = some p) : p ∈ Spec.sphere 0 5 :=
  (C37_sound true (by norm_num) 0 _ _ 5 3 ex_x_ne (by norm_num) ray hr ex_line_dist p (.inl hp)).2.2 (by norm_num)
example (ray : Ray ℝ 3) (hr : Ray.make true (![0, 3, 0] : Vec ℝ 3) ![1, 0, 0] = .ok ray) :
    ∃ p, ((intersectSphereRay ⟨0, 5⟩ ray (1 / 4)).first = some p ∨ (intersectSphereRay ⟨0, 5⟩ ray (1 / 4)).second = some p) ∧
      Spec.dist ![4, 3, 0] p ≤ Real.sqrt (1 / 4) / 2 := by
  refine C37_near true (by norm_num) 0 _ _ 5 ex_x_ne (by norm_num) ray hr _ ex_on_ray5 ex_on_sphere5 ?_
  have h : Spec.dist (![0, 3, 0] : Vec ℝ 3) ![4, 3, 0] = 4 := by
    rw [spec_dist_eq]; simp [dotProduct, Fin.sum_univ_three]
  rw [h, show (1 / 4 : ℝ) = (1 / 2) ^ 2 by norm_num, Real.sqrt_sq (by norm_num)]; norm_num
theorem ex_deep5 : (1 / 1000 : ℝ) < 4 * Spec.dist (![0, 3, 0] : Vec ℝ 3) ![8, 3, 0] ^ 2 * (5 ^ 2 - 3 ^ 2) := by rw [ex_seg_dist5]; norm_num
example : (intersectSphereSegment ⟨0, 5⟩ ⟨![0, 3, 0], ![8, 3, 0]⟩ (1 / 1000 : ℝ)).first = some ![4, 3, 0] ∨
    (intersectSphereSegment ⟨0, 5⟩ ⟨![0, 3, 0], ![8, 3, 0]⟩ (1 / 1000 : ℝ)).second = some ![4, 3, 0] :=
  C38_complete_partial (by norm_num) 0 _ _ 5 3 ex_seg_ne5 (by norm_num) ex_seg_line5 ex_deep5 _ ex_on_seg5 ex_on_sphere5
example (p : Vec ℝ 3) (hp : (intersectSphereSegment ⟨0, 5⟩ ⟨![0, 3, 0], ![8, 3, 0]⟩ (1 / 1000)).first = some p) : p ∈ Spec.sphere 0 5 :=
  (C38_sound_partial (by norm_num) 0 _ _ 5 3 ex_seg_ne5 (by norm_num) ex_seg_line5 p (.inl hp)).2 ex_deep5
example : (intersectSphereSegment ⟨0, 5⟩ ⟨![0, 3, 0], ![8, 3, 0]⟩ (1 / 1000 : ℝ)).hasIntersection = true :=
  (C38_hasIntersection_partial (by norm_num) 0 _ _ 5 3 ex_seg_ne5 (by norm_num) ex_seg_line5 ex_deep5).1 ⟨_, ex_on_seg5, ex_on_sphere5⟩
example : intersectSphereSegment ⟨0, 2⟩ ⟨![0, 3, 0], ![8, 3, 0]⟩ (1 / 1000 : ℝ) = ⟨none, none⟩ :=
  (C38_missing_partial (by norm_num) 0 _ _ 2 3 ex_seg_ne5 (by norm_num) ex_seg_line5 (by rw [ex_seg_dist5]; norm_num)).1
example := C38_counterexample_missed (ε := 1 / 1000) (by norm_num) (by norm_num)
example := C38_counterexample_unsound (ε := 1 / 1000) (by norm_num)
end Examples
end Verif
