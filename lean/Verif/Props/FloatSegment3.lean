import Verif.Proofs.FloatClosest3

set_option linter.unusedSectionVars false

/-
C146: intersections of segments in space, and of segments and rays, in floating point.
-/
namespace Verif
open Spec

/-- Two lines `o + t·d` and `o' + t·d'` whose angle has a sine of at least `s`, for a format of `p` digits with least
exponent `emin`: `s²` is at least 256 units of rounding, `W` bounds the distance of `o` and `o'`, and `m ≤ 1` bounds
the lengths of `d`, `d'` from below and their inverses from below, so that `2^-p·m⁴` is not lost to underflow. -/
structure Spec.Transversal (p : ℕ) (emin : Option ℤ) (s m W : ℝ) (o d o' d' : Fin 3 → ℝ) : Prop where
  sine_pos : 0 < s
  sine : s ^ 2 * (Spec.norm d ^ 2 * Spec.norm d' ^ 2) ≤ Spec.gram d d'
  resolved : 256 * (2 : ℝ)⁻¹ ^ p ≤ s ^ 2
  pos : 0 < m
  le_one : m ≤ 1
  le_first : m ≤ Spec.norm d
  le_second : m ≤ Spec.norm d'
  first_le : Spec.norm d * m ≤ 1
  second_le : Spec.norm d' * m ≤ 1
  le_width : m ≤ W
  width : Spec.dist o o' ≤ W
  underflow : ∀ k, emin = some k → 16 * (2 : ℝ) ^ k ≤ (2 : ℝ)⁻¹ ^ p * m ^ 4

variable {F : FloatFormat}

theorem Spec.Transversal.tiny {s m W : ℝ} {o d o' d' : Fin 3 → ℝ} (h : Spec.Transversal F.prec F.emin s m W o d o' d') : 16 * F.tiny ≤ F.unit * m ^ 4 := by
  have hu0 := F.unit_pos
  have hm := h.pos
  unfold FloatFormat.tiny
  split
  · rw [mul_zero]; positivity
  · next k hk => exact h.underflow k hk

/-- The computed closest points of two transversal lines. -/
theorem transversal_points [Tol (Fl F)] {lo a' ro b' : Vec (Fl F) 3} {a b : Vec ℝ 3} {e : Fl F} (hp : 9 ≤ F.prec) (hmin : ∀ k, F.emin = some k → k ≤ -4 * (F.prec : ℤ))
    (ha : ∀ i, |(a' i).1 - a i| ≤ F.unit * |a i|) (hb : ∀ i, |(b' i).1 - b i| ≤ F.unit * |b i|) {s m W : ℝ}
    (h : Spec.Transversal F.prec F.emin s m W (Fl.vals lo) a (Fl.vals ro) b)
    (hz : ∀ x : Fl F, 1 / 2 * (s ^ 2 * (Spec.norm a ^ 2 * Spec.norm b ^ 2)) ≤ |x.1| → Tol.isZero x e = false) :
    ∃ par t z, closestPointOnLineParameters lo a' ro b' e = some par ∧
      Spec.IsDistance (Spec.line (Fl.vals lo) a) (Spec.line (Fl.vals ro) b) (Spec.dist (Spec.pointAt (Fl.vals lo) a t) (Spec.pointAt (Fl.vals ro) b z)) ∧
      |par.t.1 - t| ≤ 122 * (F.unit / s ^ 2 * (W / s)) / Spec.norm a ∧ |par.s.1 - z| ≤ 122 * (F.unit / s ^ 2 * (W / s)) / Spec.norm b ∧
      Spec.dist (Fl.vals (vadd lo (vscale a' par.t))) (Spec.pointAt (Fl.vals lo) a t)
        ≤ F.unit * Spec.norm (Spec.pointAt (Fl.vals lo) a t) + 127 * (F.unit / s ^ 2 * (W / s)) ∧
      Spec.dist (Fl.vals (vadd ro (vscale b' par.s))) (Spec.pointAt (Fl.vals ro) b z)
        ≤ F.unit * Spec.norm (Spec.pointAt (Fl.vals ro) b z) + 127 * (F.unit / s ^ 2 * (W / s)) := by
  obtain ⟨par, t, z, hpar, c1, c2, htK, hzK, et, ez⟩ := closest_gen lo a' ro b' a b e hp hmin ha hb h.pos h.le_one h.le_first h.le_second h.first_le h.second_le
    h.le_width h.tiny h.width rfl h.sine_pos h.sine h.resolved hz
  obtain ⟨-, hu1⟩ := tiny_small hmin hp
  have hu0 := F.unit_pos
  have hm0 := h.pos
  have hs0 := h.sine_pos
  have hA0 := lt_of_lt_of_le h.pos h.le_first
  have hB0 := lt_of_lt_of_le h.pos h.le_second
  have hW0 := lt_of_lt_of_le h.pos h.le_width
  have hs1 := sine_le_one hA0 hB0 h.sine
  have hq : 0 < s ^ 2 := by positivity
  have hK0 : 0 ≤ W / s := by positivity
  have hα : F.unit / s ^ 2 ≤ 1 / 256 := by
    rw [div_le_iff₀ hq]
    have : 256 * F.unit ≤ s ^ 2 := h.resolved
    linarith
  have huα : F.unit ≤ F.unit / s ^ 2 := by
    rw [le_div_iff₀ hq]
    exact mul_le_of_le_one_right hu0.le (pow_le_one₀ hs0.le hs1)
  have hWK : W ≤ W / s := by
    rw [le_div_iff₀ hs0]
    exact mul_le_of_le_one_right hW0.le hs1
  have hτ : 16 * F.tiny ≤ F.unit * W := by
    refine h.tiny.trans (mul_le_mul_of_nonneg_left (le_trans ?_ h.le_width) hu0.le)
    calc m ^ 4 = m * m ^ 3 := by ring
      _ ≤ m * 1 := mul_le_mul_of_nonneg_left (pow_le_one₀ hm0.le h.le_one) hm0.le
      _ = m := mul_one m
  refine ⟨par, t, z, hpar, critical_distance c1 c2, ?_, ?_, point_gen lo a' a par.t hu1 ha hK0 hα huα hWK hτ htK et, point_gen ro b' b par.s hu1 hb hK0 hα huα hWK hτ hzK ez⟩
  · rw [le_div_iff₀ hA0, mul_comm]; exact et
  · rw [le_div_iff₀ hB0, mul_comm]; exact ez

/-- The parameter of a point of a line. -/
theorem pointAt_param {o d : Vec ℝ 3} (hd : 0 < Spec.norm d) {t u : ℝ} (h : Spec.pointAt o d t = Spec.pointAt o d u) : t = u := by
  by_contra hne
  have h1 : d = 0 := by
    funext i
    have := congrFun h i
    simp only [Spec.pointAt] at this
    have h2 : (t - u) * d i = 0 := by linarith
    exact (mul_eq_zero.1 h2).resolve_left (sub_ne_zero.2 hne)
  rw [h1, norm_eq_dist, Spec.dist_self] at hd
  exact lt_irrefl _ hd

section
variable [Tol (Fl F)]

/-- C146: `intersect(Segment3, Segment3)` in floating point.  With `P`, `Q` the closest points of the lines through the
exact segments and `E = (2^-p/s²)·(W/s)`: a reported point is within `2^-p·|P| + 127·E` of `P`, and if the tolerance
rejects parameters outside `[-θ, 1+θ]`, then `P` and `Q` belong to the segments prolonged by the fraction `θ` of their
lengths and the length `122·E`.  Conversely a point is reported if the tolerance accepts parameters in `[-θ, 1+θ]` and
`P` and `Q` belong to the segments prolonged by the fraction `θ` and shortened by `122·E`. -/
theorem C146_segment (f g : Segment (Fl F) 3) (e : Fl F) (hp : 9 ≤ F.prec) (hmin : ∀ k, F.emin = some k → k ≤ -4 * (F.prec : ℤ)) {s m W E : ℝ}
    (h : Spec.Transversal F.prec F.emin s m W (fun i => (f.source i).1) (fun i => (f.target i).1 - (f.source i).1)
      (fun i => (g.source i).1) (fun i => (g.target i).1 - (g.source i).1))
    (hz : ∀ x : Fl F, 1 / 2 * (s ^ 2 * (Spec.norm (fun i => (f.target i).1 - (f.source i).1) ^ 2 * Spec.norm (fun i => (g.target i).1 - (g.source i).1) ^ 2)) ≤ |x.1| →
      Tol.isZero x e = false)
    (hE : E = (2 : ℝ)⁻¹ ^ F.prec / s ^ 2 * (W / s)) :
    ∃ P Q, Spec.IsDistance (Spec.line (fun i => (f.source i).1) (fun i => (f.target i).1 - (f.source i).1))
        (Spec.line (fun i => (g.source i).1) (fun i => (g.target i).1 - (g.source i).1)) (Spec.dist P Q) ∧
      P ∈ Spec.line (fun i => (f.source i).1) (fun i => (f.target i).1 - (f.source i).1) ∧
      Q ∈ Spec.line (fun i => (g.source i).1) (fun i => (g.target i).1 - (g.source i).1) ∧
      (∀ q, intersectSegment3 f g e = some q → Spec.dist (fun i => (q i).1) P ≤ (2 : ℝ)⁻¹ ^ F.prec * Spec.norm P + 127 * E) ∧
      (∀ θ, (∀ x : Fl F, x.1 < -θ → Tol.isLess x 0 e = true) → (∀ x : Fl F, 1 + θ < x.1 → Tol.isGreater x 1 e = true) → intersectSegment3 f g e ≠ none →
        P ∈ Spec.segmentUpTo (θ + 122 * E / Spec.norm (fun i => (f.target i).1 - (f.source i).1)) (fun i => (f.source i).1) (fun i => (f.target i).1) ∧
        Q ∈ Spec.segmentUpTo (θ + 122 * E / Spec.norm (fun i => (g.target i).1 - (g.source i).1)) (fun i => (g.source i).1) (fun i => (g.target i).1)) ∧
      (∀ θ, (∀ x : Fl F, -θ ≤ x.1 → Tol.isLess x 0 e = false) → (∀ x : Fl F, x.1 ≤ 1 + θ → Tol.isGreater x 1 e = false) →
        P ∈ Spec.segmentUpTo (θ - 122 * E / Spec.norm (fun i => (f.target i).1 - (f.source i).1)) (fun i => (f.source i).1) (fun i => (f.target i).1) →
        Q ∈ Spec.segmentUpTo (θ - 122 * E / Spec.norm (fun i => (g.target i).1 - (g.source i).1)) (fun i => (g.source i).1) (fun i => (g.target i).1) →
        intersectSegment3 f g e ≠ none) := by
  obtain ⟨par, t, z, hpar, hd, et, ez, p1, -⟩ := transversal_points (lo := f.source) (a' := vsub f.target f.source) (ro := g.source) (b' := vsub g.target g.source)
    (a := fun i => (f.target i).1 - (f.source i).1) (b := fun i => (g.target i).1 - (g.source i).1) (e := e) hp hmin (fun i => Fl.sub_rel _ _) (fun i => Fl.sub_rel _ _) h hz
  change |_| ≤ 122 * ((2 : ℝ)⁻¹ ^ F.prec / s ^ 2 * (W / s)) / _ at et
  change |_| ≤ 122 * ((2 : ℝ)⁻¹ ^ F.prec / s ^ 2 * (W / s)) / _ at ez
  change _ ≤ _ + 127 * ((2 : ℝ)⁻¹ ^ F.prec / s ^ 2 * (W / s)) at p1
  rw [← hE] at et ez p1
  obtain ⟨et1, et2⟩ := abs_le.1 et
  obtain ⟨ez1, ez2⟩ := abs_le.1 ez
  have hrun : intersectSegment3 f g e = if Tol.isLess par.s 0 e || Tol.isGreater par.s 1 e || Tol.isLess par.t 0 e || Tol.isGreater par.t 1 e then none
      else some (vadd f.source (vscale (vsub f.target f.source) par.t)) := by
    unfold intersectSegment3
    simp only [hpar]
  rw [hrun]
  refine ⟨_, _, hd, ⟨t, rfl⟩, ⟨z, rfl⟩, ?_, ?_, ?_⟩
  · intro q hq
    split at hq
    · cases hq
    · cases hq
      exact p1
  · intro θ hl hg hne
    have hc : ¬ (Tol.isLess par.s 0 e || Tol.isGreater par.s 1 e || Tol.isLess par.t 0 e || Tol.isGreater par.t 1 e) = true := fun hc => hne (if_pos hc)
    simp only [Bool.or_eq_true, not_or] at hc
    obtain ⟨⟨⟨c1, c2⟩, c3⟩, c4⟩ := hc
    have d1 : -θ ≤ par.s.1 := not_lt.1 fun hh => c1 (hl _ hh)
    have d2 : par.s.1 ≤ 1 + θ := not_lt.1 fun hh => c2 (hg _ hh)
    have d3 : -θ ≤ par.t.1 := not_lt.1 fun hh => c3 (hl _ hh)
    have d4 : par.t.1 ≤ 1 + θ := not_lt.1 fun hh => c4 (hg _ hh)
    exact ⟨⟨t, by linarith, by linarith, rfl⟩, ⟨z, by linarith, by linarith, rfl⟩⟩
  · rintro θ hl hg ⟨t', t1, t2, ht'⟩ ⟨z', z1, z2, hz'⟩
    have e1 : t = t' := pointAt_param (lt_of_lt_of_le h.pos h.le_first) ht'
    have e2 : z = z' := pointAt_param (lt_of_lt_of_le h.pos h.le_second) hz'
    subst e1 e2
    rw [hl par.s (by linarith), hg par.s (by linarith), hl par.t (by linarith), hg par.t (by linarith)]
    simp

/-- C146: segments with a common point are reported to meet, near that point, if the tolerance covers the rounding error. -/
theorem C146_common_point (f g : Segment (Fl F) 3) (e : Fl F) (hp : 9 ≤ F.prec) (hmin : ∀ k, F.emin = some k → k ≤ -4 * (F.prec : ℤ)) {s m W E θ : ℝ}
    (h : Spec.Transversal F.prec F.emin s m W (fun i => (f.source i).1) (fun i => (f.target i).1 - (f.source i).1)
      (fun i => (g.source i).1) (fun i => (g.target i).1 - (g.source i).1))
    (hz : ∀ x : Fl F, 1 / 2 * (s ^ 2 * (Spec.norm (fun i => (f.target i).1 - (f.source i).1) ^ 2 * Spec.norm (fun i => (g.target i).1 - (g.source i).1) ^ 2)) ≤ |x.1| →
      Tol.isZero x e = false)
    (hE : E = (2 : ℝ)⁻¹ ^ F.prec / s ^ 2 * (W / s))
    (hl : ∀ x : Fl F, -θ ≤ x.1 → Tol.isLess x 0 e = false) (hg : ∀ x : Fl F, x.1 ≤ 1 + θ → Tol.isGreater x 1 e = false)
    (hf : 122 * E ≤ θ * Spec.norm (fun i => (f.target i).1 - (f.source i).1)) (hg' : 122 * E ≤ θ * Spec.norm (fun i => (g.target i).1 - (g.source i).1))
    {x : Fin 3 → ℝ} (hxf : x ∈ Spec.segment (fun i => (f.source i).1) (fun i => (f.target i).1)) (hxg : x ∈ Spec.segment (fun i => (g.source i).1) (fun i => (g.target i).1)) :
    ∃ q, intersectSegment3 f g e = some q ∧ Spec.dist (fun i => (q i).1) x ≤ (2 : ℝ)⁻¹ ^ F.prec * Spec.norm x + 127 * E := by
  obtain ⟨P, Q, hd, hP, hQ, hq, -, hsome⟩ := C146_segment f g e hp hmin h hz hE
  have hA0 := lt_of_lt_of_le h.pos h.le_first
  have hB0 := lt_of_lt_of_le h.pos h.le_second
  obtain ⟨t, t0, t1, hxt⟩ := hxf
  obtain ⟨z, z0, z1, hxz⟩ := hxg
  have hxl : x ∈ Spec.line (fun i => (f.source i).1) (fun i => (f.target i).1 - (f.source i).1) := ⟨t, hxt⟩
  have hxr : x ∈ Spec.line (fun i => (g.source i).1) (fun i => (g.target i).1 - (g.source i).1) := ⟨z, hxz⟩
  have h0 : Spec.dist P Q = 0 := by
    refine le_antisymm ((hd.2 ⟨x, hxl, x, hxr, rfl⟩).trans (le_of_eq (Spec.dist_self x))) (dist_nonneg' _ _)
  have hPQ : P = Q := by
    funext i
    have := coord_le_norm (fun i => P i - Q i) i
    have h1 : |P i - Q i| ≤ 0 := this.trans (le_of_eq h0)
    linarith [abs_nonpos_iff.1 h1]
  have hs0 := h.sine_pos
  have hgr : 0 < Spec.gram (fun i => (f.target i).1 - (f.source i).1) (fun i => (g.target i).1 - (g.source i).1) := lt_of_lt_of_le (by positivity) h.sine
  subst hPQ
  have hPx : P = x := lines_meet_once hgr hP hQ hxl hxr
  subst hPx
  have d1 : 122 * E / Spec.norm (fun i => (f.target i).1 - (f.source i).1) ≤ θ := (div_le_iff₀ hA0).2 hf
  have d2 : 122 * E / Spec.norm (fun i => (g.target i).1 - (g.source i).1) ≤ θ := (div_le_iff₀ hB0).2 hg'
  have hne := hsome θ hl hg ⟨t, by linarith, by linarith, hxt⟩ ⟨z, by linarith, by linarith, hxz⟩
  obtain ⟨q, hq1⟩ := Option.ne_none_iff_exists'.1 hne
  exact ⟨q, hq1, hq q hq1⟩

/-- C146: `intersect(Segment3, Ray3)` in floating point, for a ray with a direction of any length.  With `P`, `Q` the closest
points of the lines and `E = (2^-p/s²)·(W/s)`: a reported point is within `2^-p·|Q| + 127·E` of `Q` on the line of the ray;
`P` and `Q` then belong to the segment and the ray, prolonged by the tolerance and `122·E`; and a point is reported if they
belong to the segment and the ray prolonged by the tolerance and shortened by `122·E`. -/
theorem C146_ray (f : Segment (Fl F) 3) (r : Ray (Fl F) 3) (e : Fl F) (hp : 9 ≤ F.prec) (hmin : ∀ k, F.emin = some k → k ≤ -4 * (F.prec : ℤ)) {s m W E : ℝ}
    (h : Spec.Transversal F.prec F.emin s m W (fun i => (f.source i).1) (fun i => (f.target i).1 - (f.source i).1) (fun i => (r.origin i).1) (fun i => (r.direction i).1))
    (hz : ∀ x : Fl F, 1 / 2 * (s ^ 2 * (Spec.norm (fun i => (f.target i).1 - (f.source i).1) ^ 2 * Spec.norm (fun i => (r.direction i).1) ^ 2)) ≤ |x.1| →
      Tol.isZero x e = false)
    (hE : E = (2 : ℝ)⁻¹ ^ F.prec / s ^ 2 * (W / s)) :
    ∃ P Q, Spec.IsDistance (Spec.line (fun i => (f.source i).1) (fun i => (f.target i).1 - (f.source i).1))
        (Spec.line (fun i => (r.origin i).1) (fun i => (r.direction i).1)) (Spec.dist P Q) ∧
      P ∈ Spec.line (fun i => (f.source i).1) (fun i => (f.target i).1 - (f.source i).1) ∧ Q ∈ Spec.line (fun i => (r.origin i).1) (fun i => (r.direction i).1) ∧
      (∀ q, intersectSegmentRay f r e = some q → Spec.dist (fun i => (q i).1) Q ≤ (2 : ℝ)⁻¹ ^ F.prec * Spec.norm Q + 127 * E) ∧
      (∀ θ, (∀ x : Fl F, x.1 < -θ → Tol.isLess x 0 e = true) → (∀ x : Fl F, 1 + θ < x.1 → Tol.isGreater x 1 e = true) → intersectSegmentRay f r e ≠ none →
        P ∈ Spec.segmentUpTo (θ + 122 * E / Spec.norm (fun i => (f.target i).1 - (f.source i).1)) (fun i => (f.source i).1) (fun i => (f.target i).1) ∧
        Q ∈ Spec.rayUpTo (θ + 122 * E / Spec.norm (fun i => (r.direction i).1)) (fun i => (r.origin i).1) (fun i => (r.direction i).1)) ∧
      (∀ θ, (∀ x : Fl F, -θ ≤ x.1 → Tol.isLess x 0 e = false) → (∀ x : Fl F, x.1 ≤ 1 + θ → Tol.isGreater x 1 e = false) →
        P ∈ Spec.segmentUpTo (θ - 122 * E / Spec.norm (fun i => (f.target i).1 - (f.source i).1)) (fun i => (f.source i).1) (fun i => (f.target i).1) →
        Q ∈ Spec.rayUpTo (θ - 122 * E / Spec.norm (fun i => (r.direction i).1)) (fun i => (r.origin i).1) (fun i => (r.direction i).1) →
        intersectSegmentRay f r e ≠ none) := by
  have hu0 := F.unit_pos
  obtain ⟨par, t, z, hpar, hd, et, ez, -, p2⟩ := transversal_points (lo := f.source) (a' := vsub f.target f.source) (ro := r.origin) (b' := r.direction)
    (a := fun i => (f.target i).1 - (f.source i).1) (b := fun i => (r.direction i).1) (e := e) hp hmin (fun i => Fl.sub_rel _ _)
    (fun i => by rw [sub_self, abs_zero]; positivity) h hz
  change |_| ≤ 122 * ((2 : ℝ)⁻¹ ^ F.prec / s ^ 2 * (W / s)) / _ at et
  change |_| ≤ 122 * ((2 : ℝ)⁻¹ ^ F.prec / s ^ 2 * (W / s)) / _ at ez
  change _ ≤ _ + 127 * ((2 : ℝ)⁻¹ ^ F.prec / s ^ 2 * (W / s)) at p2
  rw [← hE] at et ez p2
  obtain ⟨et1, et2⟩ := abs_le.1 et
  obtain ⟨ez1, ez2⟩ := abs_le.1 ez
  have hrun : intersectSegmentRay f r e = if Tol.isLess par.t 0 e || Tol.isGreater par.t 1 e || Tol.isLess par.s 0 e then none
      else some (vadd r.origin (vscale r.direction par.s)) := by
    unfold intersectSegmentRay
    simp only [hpar]
  rw [hrun]
  refine ⟨_, _, hd, ⟨t, rfl⟩, ⟨z, rfl⟩, ?_, ?_, ?_⟩
  · intro q hq
    split at hq
    · cases hq
    · cases hq
      exact p2
  · intro θ hl hg hne
    have hc : ¬ (Tol.isLess par.t 0 e || Tol.isGreater par.t 1 e || Tol.isLess par.s 0 e) = true := fun hc => hne (if_pos hc)
    simp only [Bool.or_eq_true, not_or] at hc
    obtain ⟨⟨c3, c4⟩, c1⟩ := hc
    have d1 : -θ ≤ par.s.1 := not_lt.1 fun hh => c1 (hl _ hh)
    have d3 : -θ ≤ par.t.1 := not_lt.1 fun hh => c3 (hl _ hh)
    have d4 : par.t.1 ≤ 1 + θ := not_lt.1 fun hh => c4 (hg _ hh)
    exact ⟨⟨t, by linarith, by linarith, rfl⟩, ⟨z, by linarith, rfl⟩⟩
  · rintro θ hl hg ⟨t', t1, t2, ht'⟩ ⟨z', z1, hz'⟩
    have e1 : t = t' := pointAt_param (lt_of_lt_of_le h.pos h.le_first) ht'
    have e2 : z = z' := pointAt_param (lt_of_lt_of_le h.pos h.le_second) hz'
    subst e1 e2
    rw [hl par.s (by linarith), hl par.t (by linarith), hg par.t (by linarith)]
    simp
end

section Examples
attribute [local instance] tol64

/-- The segments from (0, 0, 0) to (6, 8, 0) and from (7, 1, 0) to (-1, 7, 0). -/
noncomputable def seg64 : Segment (Fl binary64) 3 := ⟨p64 0 0 0, p64 6 8 0⟩
noncomputable def cut64 : Segment (Fl binary64) 3 := ⟨p64 7 1 0, p64 (-1) 7 0⟩

theorem seg64_source : (fun i => (seg64.source i).1) = (![0, 0, 0] : Vec ℝ 3) := vals000
theorem seg64_target : (fun i => (seg64.target i).1) = (![6, 8, 0] : Vec ℝ 3) := by
  change (fun i => ((p64 6 8 0) i).1) = _
  simpa using p64_vals 6 8 0 (by norm_num) (by norm_num) (by norm_num)
theorem cut64_source : (fun i => (cut64.source i).1) = (![7, 1, 0] : Vec ℝ 3) := vals710
theorem cut64_target : (fun i => (cut64.target i).1) = (![-1, 7, 0] : Vec ℝ 3) := by
  change (fun i => ((p64 (-1) 7 0) i).1) = _
  simpa using p64_vals (-1) 7 0 (by norm_num) (by norm_num) (by norm_num)
theorem seg64_dir : (fun i => (seg64.target i).1 - (seg64.source i).1) = (![6, 8, 0] : Vec ℝ 3) := by
  funext i
  rw [show (seg64.target i).1 = _ from congrFun seg64_target i, show (seg64.source i).1 = _ from congrFun seg64_source i]
  fin_cases i <;> simp
theorem cut64_dir : (fun i => (cut64.target i).1 - (cut64.source i).1) = (![-8, 6, 0] : Vec ℝ 3) := by
  funext i
  rw [show (cut64.target i).1 = _ from congrFun cut64_target i, show (cut64.source i).1 = _ from congrFun cut64_source i]
  fin_cases i <;> (simp; try norm_num)
theorem norm680 : Spec.norm (![6, 8, 0] : Vec ℝ 3) = 10 := norm3 _ _ _ 10 (by norm_num) (by norm_num)
theorem norm860 : Spec.norm (![-8, 6, 0] : Vec ℝ 3) = 10 := norm3 _ _ _ 10 (by norm_num) (by norm_num)

theorem under64 : ∀ k, binary64.emin = some k → 16 * (2 : ℝ) ^ k ≤ (2 : ℝ)⁻¹ ^ binary64.prec * (1 / 16) ^ 4 := fun k hk => by
  cases hk
  show 16 * (2 : ℝ) ^ (-1074 : ℤ) ≤ (2 : ℝ)⁻¹ ^ 53 * (1 / 16) ^ 4
  have h1 : (2 : ℝ) ^ (-1074 : ℤ) ≤ 2 ^ (-100 : ℤ) := zpow_le_zpow_right₀ (by norm_num) (by norm_num)
  exact (mul_le_mul_of_nonneg_left h1 (by norm_num)).trans (by norm_num)

theorem cross64 : Spec.Transversal binary64.prec binary64.emin 1 (1 / 16) 8 (fun i => (seg64.source i).1) (fun i => (seg64.target i).1 - (seg64.source i).1)
      (fun i => (cut64.source i).1) (fun i => (cut64.target i).1 - (cut64.source i).1) := by
  rw [seg64_dir, cut64_dir, seg64_source, cut64_source]
  refine ⟨by norm_num, ?_, ?_, by norm_num, by norm_num, ?_, ?_, ?_, ?_, by norm_num, dist3_le (by norm_num) (by norm_num), under64⟩
  · rw [norm680, norm860]
    unfold Spec.gram
    simp only [Fin.sum_univ_three, Matrix.cons_val_zero, Matrix.cons_val_one, Matrix.cons_val]
    norm_num
  · show 256 * (2 : ℝ)⁻¹ ^ 53 ≤ _
    norm_num
  all_goals simp only [norm680, norm860]; norm_num

/-- These segments are reported to meet, near (3, 4, 0). -/
example : ∃ q, intersectSegment3 seg64 cut64 = some q ∧ Spec.dist (fun i => (q i).1) ![3, 4, 0] ≤ 1 / 10 ^ 12 := by
  obtain ⟨q, h1, h2⟩ := C146_common_point seg64 cut64 Tol.eps (by show 9 ≤ 53; norm_num) min64 (θ := 1 / 10 ^ 6) cross64
    (fun x hx => by
      rw [seg64_dir, cut64_dir, norm680, norm860] at hx
      exact isZero64 _ x (by linarith)) rfl
    (fun x hx => decide_eq_false (by show ¬ x.1 < 0 - 1 / 10 ^ 6; rw [not_lt]; linarith))
    (fun x hx => decide_eq_false (by show ¬ 1 < x.1 - 1 / 10 ^ 6; rw [not_lt]; linarith))
    (by rw [seg64_dir, norm680]; show 122 * ((2 : ℝ)⁻¹ ^ 53 / 1 ^ 2 * (8 / 1)) ≤ _; norm_num)
    (by rw [cut64_dir, norm860]; show 122 * ((2 : ℝ)⁻¹ ^ 53 / 1 ^ 2 * (8 / 1)) ≤ _; norm_num) (x := ![3, 4, 0])
    (by
      rw [seg64_source, seg64_target]
      refine ⟨1 / 2, by norm_num, by norm_num, ?_⟩
      funext i; fin_cases i <;> (simp; try norm_num))
    (by
      rw [cut64_source, cut64_target]
      refine ⟨1 / 2, by norm_num, by norm_num, ?_⟩
      funext i; fin_cases i <;> (simp; try norm_num))
  refine ⟨q, h1, h2.trans ?_⟩
  rw [show Spec.norm (![3, 4, 0] : Vec ℝ 3) = 5 from norm3 _ _ _ 5 (by norm_num) (by norm_num)]
  show (2 : ℝ)⁻¹ ^ 53 * 5 + 127 * ((2 : ℝ)⁻¹ ^ 53 / 1 ^ 2 * (8 / 1)) ≤ _
  norm_num

/-- The segment from (0, 0, 0) to (6, 8, 0) and the segment from (-1, 7, 0) to (-9, 13, 0), on the same line as the second
one above, are not reported to meet. -/
noncomputable def past64 : Segment (Fl binary64) 3 := ⟨p64 (-1) 7 0, p64 (-9) 13 0⟩
theorem past64_source : (fun i => (past64.source i).1) = (![-1, 7, 0] : Vec ℝ 3) := cut64_target
theorem past64_target : (fun i => (past64.target i).1) = (![-9, 13, 0] : Vec ℝ 3) := by
  change (fun i => ((p64 (-9) 13 0) i).1) = _
  simpa using p64_vals (-9) 13 0 (by norm_num) (by norm_num) (by norm_num)
theorem past64_dir : (fun i => (past64.target i).1 - (past64.source i).1) = (![-8, 6, 0] : Vec ℝ 3) := by
  funext i
  rw [show (past64.target i).1 = _ from congrFun past64_target i, show (past64.source i).1 = _ from congrFun past64_source i]
  fin_cases i <;> (simp; try norm_num)
theorem skip64 : Spec.Transversal binary64.prec binary64.emin 1 (1 / 16) 8 (fun i => (seg64.source i).1) (fun i => (seg64.target i).1 - (seg64.source i).1)
      (fun i => (past64.source i).1) (fun i => (past64.target i).1 - (past64.source i).1) := by
  have h := cross64
  rw [cut64_dir, cut64_source] at h
  rw [past64_dir, past64_source]
  exact { h with width := by rw [seg64_source]; exact dist3_le (by norm_num) (by norm_num) }

example : intersectSegment3 seg64 past64 = none := by
  obtain ⟨P, Q, hd, ⟨t, hP⟩, ⟨z, hQ⟩, -, hr, -⟩ := C146_segment seg64 past64 Tol.eps (by show 9 ≤ 53; norm_num) min64 skip64
    (fun x hx => by
      rw [seg64_dir, past64_dir, norm680, norm860] at hx
      exact isZero64 _ x (by linarith)) rfl
  by_contra hne
  obtain ⟨-, z', h1, -, h2⟩ := hr (1 / 10 ^ 6) (fun x hx => decide_eq_true (by show x.1 < 0 - 1 / 10 ^ 6; linarith))
    (fun x hx => decide_eq_true (by show 1 < x.1 - 1 / 10 ^ 6; linarith)) hne
  rw [past64_dir, norm860] at h1
  have h3 : -(1 / 10 ^ 3) ≤ z' := by
    refine le_trans ?_ h1
    show -(1 / 10 ^ 3) ≤ -(1 / 10 ^ 6 + 122 * ((2 : ℝ)⁻¹ ^ 53 / 1 ^ 2 * (8 / 1)) / 10)
    norm_num
  have h0 : Spec.dist P Q ≤ 0 := by
    refine (hd.2 ⟨![3, 4, 0], ⟨1 / 2, ?_⟩, ![3, 4, 0], ⟨-1 / 2, ?_⟩, rfl⟩).trans (le_of_eq (Spec.dist_self _))
    · rw [seg64_dir, seg64_source]
      funext i; fin_cases i <;> (simp [Spec.pointAt]; try norm_num)
    · rw [past64_dir, past64_source]
      funext i; fin_cases i <;> (simp [Spec.pointAt]; try norm_num)
  rw [seg64_dir, seg64_source] at hP
  have hs : ∀ i, (past64.source i).1 = (![-1, 7, 0] : Vec ℝ 3) i := congrFun past64_source
  have ht : ∀ i, (past64.target i).1 = (![-9, 13, 0] : Vec ℝ 3) i := congrFun past64_target
  have k : ∀ i, P i = Q i := fun i => by
    have h1 := (coord_le_norm (fun i => P i - Q i) i).trans h0
    linarith [abs_nonpos_iff.1 h1]
  have k0 := k 0
  have k1 := k 1
  rw [hP, h2] at k0 k1
  simp only [Spec.pointAt, hs, ht, Matrix.cons_val_zero, Matrix.cons_val_one] at k0 k1
  linarith

/-- The ray from (7, 1, 0) in direction (-8, 6, 0) meets the segment near (3, 4, 0). -/
noncomputable def ray64' : Ray (Fl binary64) 3 := ⟨p64 7 1 0, p64 (-8) 6 0⟩
theorem ray64'_dir : (fun i => (ray64'.direction i).1) = (![-8, 6, 0] : Vec ℝ 3) := by
  change (fun i => ((p64 (-8) 6 0) i).1) = _
  simpa using p64_vals (-8) 6 0 (by norm_num) (by norm_num) (by norm_num)

example : intersectSegmentRay seg64 ray64' ≠ none := by
  have hc := cross64
  rw [cut64_dir, ← ray64'_dir] at hc
  obtain ⟨P, Q, hd, hP, hQ, -, -, hs⟩ := C146_ray seg64 ray64' Tol.eps (by show 9 ≤ 53; norm_num) min64 hc
    (fun x hx => by
      rw [seg64_dir, ray64'_dir, norm680, norm860] at hx
      exact isZero64 _ x (by linarith)) rfl
  have hx1 : (![3, 4, 0] : Vec ℝ 3) ∈ Spec.line (fun i => (seg64.source i).1) (fun i => (seg64.target i).1 - (seg64.source i).1) := ⟨1 / 2, by
    rw [seg64_dir, seg64_source]
    funext i; fin_cases i <;> (simp [Spec.pointAt]; try norm_num)⟩
  have hx2 : (![3, 4, 0] : Vec ℝ 3) = Spec.pointAt (fun i => (ray64'.origin i).1) (fun i => (ray64'.direction i).1) (1 / 2) := by
    rw [ray64'_dir, show (fun i => (ray64'.origin i).1) = (![7, 1, 0] : Vec ℝ 3) from vals710]
    funext i; fin_cases i <;> (simp [Spec.pointAt]; try norm_num)
  have h0 : Spec.dist P Q ≤ 0 := (hd.2 ⟨_, hx1, _, ⟨_, hx2⟩, rfl⟩).trans (le_of_eq (Spec.dist_self _))
  have hPQ : P = Q := by
    funext i
    have h1 := (coord_le_norm (fun i => P i - Q i) i).trans h0
    linarith [abs_nonpos_iff.1 h1]
  subst hPQ
  have hPx := lines_meet_once (lt_of_lt_of_le (by rw [seg64_dir, ray64'_dir, norm680, norm860]; norm_num) hc.sine) hP hQ hx1 ⟨_, hx2⟩
  subst hPx
  have hb : 122 * ((2 : ℝ)⁻¹ ^ binary64.prec / 1 ^ 2 * (8 / 1)) / 10 ≤ 1 / 10 ^ 6 := by
    show 122 * ((2 : ℝ)⁻¹ ^ 53 / 1 ^ 2 * (8 / 1)) / 10 ≤ _
    norm_num
  refine hs (1 / 10 ^ 6) (fun x hx => decide_eq_false (by show ¬ x.1 < 0 - 1 / 10 ^ 6; rw [not_lt]; linarith))
    (fun x hx => decide_eq_false (by show ¬ 1 < x.1 - 1 / 10 ^ 6; rw [not_lt]; linarith)) ⟨1 / 2, ?_, ?_, ?_⟩ ⟨1 / 2, ?_, hx2⟩
  · rw [seg64_dir, norm680]; linarith
  · rw [seg64_dir, norm680]; linarith
  · rw [seg64_source, seg64_target]
    funext i; fin_cases i <;> (simp; try norm_num)
  · rw [ray64'_dir, norm860]; linarith
end Examples
end Verif
