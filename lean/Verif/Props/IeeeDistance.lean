import Verif.Props.FloatSegmentDistance
import Verif.Props.IeeeLine

set_option linter.unusedSectionVars false

/-
C155: distances of two lines, of a line and a ray, and of a point and a segment in IEEE arithmetic, with overflow.
-/
namespace Verif
open Spec

/-- A tolerance for the numbers without a largest exponent that calls everything equal and the numbers below `B` zero. -/
@[reducible] noncomputable def tolBelow {F : FloatFormat} (B : ℝ) : Tol (Fl F) :=
  haveI := Classical.propDecidable
  { eps := 0, isLess := fun _ _ _ => false, isLessEq := fun _ _ _ => false, isGreaterEq := fun _ _ _ => false, isEq := fun _ _ _ => true,
    isZero := fun x _ => decide (|x.1| < B), isGreater := fun _ _ _ => false }

/-- The length of the cross product of two directions, as it is computed, for directions that are not nearly parallel. -/
theorem skew_length {F : FloatFormat} (a b : Vec (Fl F) 3) (hp : 9 ≤ F.prec) (hmin : ∀ k, F.emin = some k → k ≤ -4 * (F.prec : ℤ))
    (ha : Spec.norm (Fl.vals a) ≤ 33 / 32) (hb : Spec.norm (Fl.vals b) ≤ 33 / 32) {s : ℝ} (hs0 : 0 < s)
    (hs : s ^ 2 ≤ Spec.gram (Fl.vals a) (Fl.vals b)) (hu : 64 * F.unit ≤ s) : 1 / 2 * s ≤ (length (cross a b)).1 := by
  let tol : Tol (Fl F) := tolBelow 1
  obtain ⟨ht, hu1⟩ := tiny_small hmin hp
  have hu0 := F.unit_pos
  have ht0 := F.tiny_nonneg
  have hc := direction_cross a b hp hmin ha hb
  set N := Spec.norm (cross (Fl.vals a) (Fl.vals b)) with hN
  have hNs : s ≤ N := by
    have h1 : s ^ 2 ≤ N ^ 2 := by rw [hN, cross_norm_sq]; exact hs
    exact le_of_sq_le_sq h1 (norm_nonneg' _)
  set N' := Spec.norm (Fl.vals (cross a b)) with hN'
  have hNN : |N' - N| ≤ 7 * F.unit := (norm_sub_norm _ _).trans hc
  obtain ⟨m1, m2⟩ := abs_le.1 hNN
  have hN'0 : 57 / 64 * N ≤ N' := by linarith
  have hN'u : F.unit ≤ N' := by linarith
  have huu : 0 ≤ F.unit * F.unit := by positivity
  have hlen := length_err (cross a b) hN'.symm (by linarith)
    (by
      have h1 : F.unit ^ 2 ≤ N' ^ 2 := pow_le_pow_left₀ hu0.le hN'u 2
      have h2 := mul_le_mul_of_nonneg_left h1 huu
      have e : F.unit ^ 4 = F.unit * F.unit * F.unit ^ 2 := by ring
      have h3 : 0 ≤ F.unit * F.unit * N' ^ 2 := by positivity
      linarith)
    (by
      have h2 := mul_le_mul_of_nonneg_left hN'u huu
      have h3 : F.unit ^ 4 ≤ F.unit * F.unit * F.unit := by
        have e : F.unit ^ 4 = F.unit * F.unit * F.unit * F.unit := by ring
        rw [e]
        exact mul_le_of_le_one_right (by positivity) (by linarith)
      linarith [mul_nonneg huu (hu0.le.trans hN'u)])
    (by push_cast; linarith)
  push_cast at hlen
  have h1 := (abs_le.1 hlen).1
  have h2 : F.unit * N' ≤ 1 / 512 * N' := mul_le_mul_of_nonneg_right hu1 (by linarith)
  linarith

/-- For parallel directions. -/
theorem parallel_length {F : FloatFormat} (a b : Vec (Fl F) 3) (hp : 9 ≤ F.prec) (hmin : ∀ k, F.emin = some k → k ≤ -4 * (F.prec : ℤ))
    (ha : Spec.norm (Fl.vals a) ≤ 33 / 32) (hb : Spec.norm (Fl.vals b) ≤ 33 / 32) (hpar : Spec.Parallel (Fl.vals a) (Fl.vals b)) :
    |(length (cross a b)).1| ≤ 8 * F.unit := by
  let tol : Tol (Fl F) := tolBelow 1
  obtain ⟨ht, hu1⟩ := tiny_small hmin hp
  have hu0 := F.unit_pos
  have ht0 := F.tiny_nonneg
  have htt := tiny_of_emin (F := F) fun k hk => by have := hmin k hk; omega
  have hD : 64 * (3 + 2) ≤ 2 ^ F.prec := le_trans (by norm_num) (Nat.pow_le_pow_right (by norm_num) hp)
  have hc := direction_cross a b hp hmin ha hb
  have hc0 : cross (Fl.vals a) (Fl.vals b) = 0 := by
    funext i
    fin_cases i
    · exact sub_eq_zero.2 (hpar 1 2)
    · exact sub_eq_zero.2 (hpar 2 0)
    · exact sub_eq_zero.2 (hpar 0 1)
  rw [hc0, ← norm_eq_dist] at hc
  have hlen := length_abs (cross a b) hD htt
  have hroot : F.root 3 ≤ 4 * (F.unit * F.unit) := by
    refine root_le (by positivity) fun k hk => ?_
    have : F.tiny = (2 : ℝ) ^ k := by unfold FloatFormat.tiny; rw [hk]
    rw [← this]
    have e : (4 * (F.unit * F.unit)) ^ 2 = 16 * F.unit ^ 4 := by ring
    rw [e]
    push_cast
    linarith
  push_cast at hlen
  have h1 := norm_nonneg' (Fl.vals (cross a b))
  have h2 : 0 ≤ (length (cross a b)).1 := F.rounds.nonneg (Real.sqrt_nonneg _)
  rw [abs_of_nonneg h2]
  have h3 := (abs_le.1 hlen).2
  have h4 : F.unit * Spec.norm (Fl.vals (cross a b)) ≤ F.unit * (7 * F.unit) := mul_le_mul_of_nonneg_left hc hu0.le
  have h5 : F.unit * F.unit ≤ 1 / 512 * F.unit := mul_le_mul_of_nonneg_right hu1 hu0.le
  linarith

namespace Ieee
variable {F : IeeeFormat} {D : ℕ}

section
variable [Tol (Ieee F)]

/-- **C155** Two skew lines in IEEE arithmetic: C113 holds for coordinates up to `2 ^ k` and directions that span a parallelogram of area at least
`2 ^ (1 - j)`, `k + j + 9 < emax`. -/
theorem C155_skew_partial (dbg : Bool) (k j : ℕ) (hk : k + j + 9 < F.emax) (l r : Line (Ieee F) 3)
    (hlo : ∀ i, AtMost k (l.origin i)) (hro : ∀ i, AtMost k (r.origin i)) (hld : ∀ i, ∃ x, (l.direction i).val? = some x)
    (hrd : ∀ i, ∃ x, (r.direction i).val? = some x) (hp : 9 ≤ F.prec) (hmin : ∀ k, F.emin = some k → k ≤ -4 * (F.prec : ℤ))
    {η : ℝ} (hl : |Spec.norm (reals l.direction) - 1| ≤ η) (hr : |Spec.norm (reals r.direction) - 1| ≤ η) (hη : η ≤ 1 / 32)
    (hone : ∀ (a : Ieee F) x, a.val? = some x → |x - 1| ≤ η + 6 * (2 : ℝ)⁻¹ ^ F.prec → isEq a 1 = true)
    {s ω : ℝ} (hs0 : 0 < s) (hs : s ^ 2 ≤ Spec.gram (reals l.direction) (reals r.direction)) (hj : 2 ≤ s * 2 ^ j)
    (hu : 64 * (2 : ℝ)⁻¹ ^ F.prec ≤ s) (hω0 : 0 ≤ ω) (hω : ∀ k, F.emin = some k → (2 : ℝ) ^ k * (1 / s + 1) ≤ ω)
    (hz : ∀ (a : Ieee F) x, a.val? = some x → 1 / 2 * s ≤ |x| → isZero a = false) :
    ∃ v x δ, distLineLine dbg l r = .ok v ∧ v.val? = some x ∧
      Spec.IsDistance (Spec.line (reals l.origin) (reals l.direction)) (Spec.line (reals r.origin) (reals r.direction)) δ ∧
      |(|x|) - δ| ≤ 40 * ((2 : ℝ)⁻¹ ^ F.prec * (Spec.dist (reals l.origin) (reals r.origin) / s)) + 15 * ω := by
  have hl' := near_direction hld (by linarith [(abs_le.1 hl).2])
  have hr' := near_direction hrd (by linarith [(abs_le.1 hr).2])
  have nlo : NearVec k l.origin (flOf l.origin) := fun i => (hlo i).near
  have nro : NearVec k r.origin (flOf r.origin) := fun i => (hro i).near
  have nld : NearVec 1 l.direction (flOf l.direction) := fun i => (hl' i).near
  have nrd : NearVec 1 r.direction (flOf r.direction) := fun i => (hr' i).near
  rw [nld.reals] at hl hs ⊢
  rw [nrd.reals] at hr hs ⊢
  rw [nlo.reals, nro.reals]
  have hlow := skew_length (flOf l.direction) (flOf r.direction) hp hmin
    (by have := (abs_le.1 hl).2; change Spec.norm (Fl.vals (flOf l.direction)) - 1 ≤ _ at this; linarith)
    (by have := (abs_le.1 hr).2; change Spec.norm (Fl.vals (flOf r.direction)) - 1 ≤ _ at this; linarith) hs0 hs hu
  have hlow' := hlow.trans (le_abs_self _)
  obtain ⟨v, δ, h1, h2, h3⟩ := @C113_distance_skew F.toFloatFormat (tolBelow (1 / 2 * s)) η false ⟨flOf l.origin, flOf l.direction⟩
    ⟨flOf r.origin, flOf r.direction⟩ hp hmin hl hr hη (fun _ _ => rfl) s ω hs0 hs hu hω0 hω
    (fun x hx => @decide_eq_false _ (Classical.propDecidable _) (not_lt.2 hx))
  have hv : v = dot (vsub (flOf l.origin) (flOf r.origin)) (cross (flOf l.direction) (flOf r.direction))
      / length (cross (flOf l.direction) (flOf r.direction)) := by
    unfold distLineLine at h1
    simp only [geoAssert_true] at h1
    rw [show @isZero _ (tolBelow (1 / 2 * s)) _ = false from @decide_eq_false _ (Classical.propDecidable _) (not_lt.2 hlow')] at h1
    exact (Except.ok.inj h1).symm
  have mc := nld.cross nrd (by omega)
  have ml := mc.length (by omega)
  have md := (nlo.vsub nro (by omega)).dot mc (by omega)
  have mq := md.div ml (j := j) (by nlinarith [show (0 : ℝ) < 2 ^ j by positivity]) (by omega)
  rw [← hv] at mq
  refine ⟨_, _, δ, ?_, mq.val, h2, h3⟩
  unfold distLineLine
  simp only [hone _ _ (nld.length (by omega)).val (@direction_length F.toFloatFormat (tolBelow 1) _ hp hmin η hl hη),
    hone _ _ (nrd.length (by omega)).val (@direction_length F.toFloatFormat (tolBelow 1) _ hp hmin η hr hη),
    geoAssert_true, ok_bind, hz _ _ ml.val hlow']
  rfl

/-- **C155** Two parallel lines, likewise, for coordinates up to `2 ^ k`, `2 k + 23 < emax`. -/
theorem C155_parallel_partial (dbg : Bool) (k : ℕ) (hk : 2 * k + 23 < F.emax) (l r : Line (Ieee F) 3)
    (hlo : ∀ i, AtMost k (l.origin i)) (hro : ∀ i, AtMost k (r.origin i)) (hld : ∀ i, ∃ x, (l.direction i).val? = some x)
    (hrd : ∀ i, ∃ x, (r.direction i).val? = some x) (hp : 9 ≤ F.prec) (hmin : ∀ k, F.emin = some k → k ≤ -4 * (F.prec : ℤ))
    {η : ℝ} (hl : |Spec.norm (reals l.direction) - 1| ≤ η) (hr : |Spec.norm (reals r.direction) - 1| ≤ η) (hη : η ≤ 1 / 32)
    (hone : ∀ (a : Ieee F) x, a.val? = some x → |x - 1| ≤ η + 6 * (2 : ℝ)⁻¹ ^ F.prec → isEq a 1 = true)
    (hpar : Spec.Parallel (reals l.direction) (reals r.direction))
    (hz : ∀ (a : Ieee F) x, a.val? = some x → |x| ≤ 8 * (2 : ℝ)⁻¹ ^ F.prec → isZero a = true)
    {ω : ℝ} (hω0 : 0 ≤ ω) (hω2 : ∀ k, F.emin = some k → 10 * (2 : ℝ) ^ k ≤ ω ^ 2) :
    ∃ v x δ, distLineLine dbg l r = .ok v ∧ v.val? = some x ∧
      Spec.IsDistance (Spec.line (reals l.origin) (reals l.direction)) (Spec.line (reals r.origin) (reals r.direction)) δ ∧
      |x - δ| ≤ 40 * ((2 : ℝ)⁻¹ ^ F.prec * Spec.dist (reals l.origin) (reals r.origin)) + 3 * ω := by
  have hD : 64 * (3 + 2) ≤ 2 ^ F.prec := le_trans (by norm_num) (Nat.pow_le_pow_right (by norm_num) hp)
  have a1 := (abs_le.1 hl).2
  have a2 := abs_le.1 hr
  obtain ⟨x, δ, h1, h2, h3⟩ := C120_point_line_partial k (by omega) l.origin r hlo hro hrd hD (fun k hk => by have := hmin k hk; omega) (by linarith) (by linarith)
    hω0 (fun k hk => by have := hω2 k hk; push_cast; linarith)
  have hl' := near_direction hld (by linarith)
  have hr' := near_direction hrd (by linarith)
  have nld : NearVec 1 l.direction (flOf l.direction) := fun i => (hl' i).near
  have nrd : NearVec 1 r.direction (flOf r.direction) := fun i => (hr' i).near
  have hne : reals r.direction ≠ 0 := by
    intro h
    have h0 : Spec.norm (reals r.direction) = 0 := by rw [h]; unfold Spec.norm; simp
    rw [h0] at a2
    linarith
  refine ⟨_, x, δ, ?_, h1, parallel_distance _ _ _ _ hne hpar h2, ?_⟩
  · rw [nld.reals] at hl hpar a1
    rw [nrd.reals] at hr hpar a2
    have hlow := parallel_length (flOf l.direction) (flOf r.direction) hp hmin
      (by change Spec.norm (Fl.vals (flOf l.direction)) - 1 ≤ _ at a1; linarith)
      (by have := a2.2; change Spec.norm (Fl.vals (flOf r.direction)) - 1 ≤ _ at this; linarith) hpar
    unfold distLineLine
    simp only [hone _ _ (nld.length (by omega)).val (@direction_length F.toFloatFormat (tolBelow 1) _ hp hmin η hl hη),
    hone _ _ (nrd.length (by omega)).val (@direction_length F.toFloatFormat (tolBelow 1) _ hp hmin η hr hη),
      geoAssert_true, ok_bind, hz _ _ ((nld.cross nrd (by omega)).length (by omega)).val hlow]
    rfl
  · push_cast at h3
    linarith

/-- **C155** A line and a ray in IEEE arithmetic: C114 holds for coordinates up to `2 ^ k` and angles whose squared sine is at least `2 ^ (1 - j)`,
`2 k + 2 j + 31 < emax`. -/
theorem C155_line_ray_partial (k j : ℕ) (hk : 2 * k + 2 * j + 31 < F.emax) (l : Line (Ieee F) 3) (r : Ray (Ieee F) 3)
    (hlo : ∀ i, AtMost k (l.origin i)) (hro : ∀ i, AtMost k (r.origin i)) (hld : ∀ i, ∃ x, (l.direction i).val? = some x)
    (hrd : ∀ i, ∃ x, (r.direction i).val? = some x) (hp : 9 ≤ F.prec) (hmin : ∀ k, F.emin = some k → k ≤ -4 * (F.prec : ℤ))
    (hl : |Spec.norm (reals l.direction) - 1| ≤ 1 / 32) (hr : Spec.norm (reals r.direction) ≤ 33 / 32)
    {s ω : ℝ} (hs0 : 0 < s) (hs : s ^ 2 ≤ Spec.gram (reals l.direction) (reals r.direction)) (hj : 2 ≤ s ^ 2 * 2 ^ j)
    (hu : 256 * (2 : ℝ)⁻¹ ^ F.prec ≤ s ^ 2) (hω0 : 0 ≤ ω) (hω : ∀ k, F.emin = some k → (2 : ℝ) ^ k * (1 / s ^ 2 + 1) ≤ ω)
    (hω2 : ∀ k, F.emin = some k → 10 * (2 : ℝ) ^ k ≤ ω ^ 2)
    (hz : ∀ (a : Ieee F) x, a.val? = some x → 1 / 2 * s ^ 2 ≤ |x| → isZero a = false) :
    ∃ x δ, (distLineRay l r).val? = some x ∧
      Spec.IsDistance (Spec.line (reals l.origin) (reals l.direction)) (Spec.ray (reals r.origin) (reals r.direction)) δ ∧
      |x - δ| ≤ 2 * (2 : ℝ)⁻¹ ^ F.prec * (Spec.norm (reals l.origin) + Spec.norm (reals r.origin))
        + 420 * ((2 : ℝ)⁻¹ ^ F.prec / s ^ 2 * (Spec.dist (reals l.origin) (reals r.origin) / s)) + 130 * ω := by
  have hl' := near_direction hld (by linarith [(abs_le.1 hl).2])
  have hr' := near_direction hrd (by linarith)
  have nlo : NearVec k l.origin (flOf l.origin) := fun i => (hlo i).near
  have nro : NearVec k r.origin (flOf r.origin) := fun i => (hro i).near
  have nld : NearVec 1 l.direction (flOf l.direction) := fun i => (hl' i).near
  have nrd : NearVec 1 r.direction (flOf r.direction) := fun i => (hr' i).near
  rw [nld.reals] at hl hs ⊢
  rw [nrd.reals] at hr hs ⊢
  rw [nlo.reals, nro.reals]
  have hω' : F.tiny * (1 / s ^ 2 + 1) ≤ ω := by
    unfold FloatFormat.tiny
    split
    · rw [zero_mul]; exact hω0
    · next k hk => exact hω k hk
  have hD : 64 * (3 + 2) ≤ 2 ^ F.prec := le_trans (by norm_num) (Nat.pow_le_pow_right (by norm_num) hp)
  let tol : Tol (Fl F.toFloatFormat) := tolOf (fun x => |x.1| < 1 / 2 * s ^ 2) (fun _ => False) (fun _ => False)
  have hz' : ∀ x : Fl F.toFloatFormat, 1 / 2 * s ^ 2 ≤ |x.1| → isZero x = false := fun x hx => @decide_eq_false _ (Classical.propDecidable _) (not_lt.2 hx)
  obtain ⟨δ, h2, h3⟩ := C114_line_ray ⟨flOf l.origin, flOf l.direction⟩ ⟨flOf r.origin, flOf r.direction⟩ hp hmin hl hr hs0 hs hu hω0 hω hω2 hz'
  obtain ⟨par, t, z, hpar, -⟩ := closest_points (flOf l.origin) (flOf l.direction) (flOf r.origin) (flOf r.direction)
      0 hp hmin (by have := (abs_le.1 hl).2; change Spec.norm (Fl.vals (flOf l.direction)) - 1 ≤ _ at this; linarith) hr hs0 hs hu hω'
      (root_le hω0 fun k hk => by have := hω2 k hk; push_cast; linarith) hz'
  obtain ⟨par', h1, n1, n2⟩ := closest_near (j := j) (B := 1 / 2 * s ^ 2) nlo nro nld nrd (by omega) (by linarith) hpar hz
  have m1 := (nlo.mono (by omega : k ≤ k + j + 12)).vadd ((nld.vscale n1 (by omega)).mono (by omega)) (by omega)
  have m2 := (nro.mono (by omega : k ≤ k + j + 12)).vadd ((nrd.vscale n2 (by omega)).mono (by omega)) (by omega)
  have m3 := (m1.vsub m2 (by omega)).length (by omega)
  have hlow := dot_self_lower (flOf l.direction) hD (tiny_of_emin fun k hk => by have := hmin k hk; omega)
    (by linarith [(abs_le.1 hl).1])
  have m4 := NearVec.length ((nlo.vsub nro (by omega)).rejection nld hlow (by omega) (by omega)) (by omega)
  refine ⟨_, δ, ?_, h2, h3⟩
  unfold distLineRay
  rw [h1, show closestPointOnLineParameters (flOf l.origin) (flOf l.direction) (flOf r.origin) (flOf r.direction) = some par from hpar]
  simp only
  by_cases hc : par.s < 0
  · rw [if_pos hc, if_pos ((n2.lt_iff near_zero).2 hc)]
    exact m4.val
  · rw [if_neg hc, if_neg fun h => hc ((n2.lt_iff near_zero).1 h)]
    exact m3.val

/-- **C155** A line and a ray with parallel directions, likewise. -/
theorem C155_line_ray_parallel_partial (k : ℕ) (hk : 2 * k + 23 < F.emax) (l : Line (Ieee F) 3) (r : Ray (Ieee F) 3)
    (hlo : ∀ i, AtMost k (l.origin i)) (hro : ∀ i, AtMost k (r.origin i)) (hld : ∀ i, ∃ x, (l.direction i).val? = some x)
    (hrd : ∀ i, ∃ x, (r.direction i).val? = some x) (hp : 9 ≤ F.prec) (hmin : ∀ k, F.emin = some k → k ≤ -4 * (F.prec : ℤ))
    (hl : |Spec.norm (reals l.direction) - 1| ≤ 1 / 32) (hr : Spec.norm (reals r.direction) ≤ 33 / 32)
    (hpar : Spec.Parallel (reals l.direction) (reals r.direction))
    (hz : ∀ (a : Ieee F) x, a.val? = some x → |x| ≤ 45 * (2 : ℝ)⁻¹ ^ F.prec → isZero a = true)
    {ω : ℝ} (hω0 : 0 ≤ ω) (hω2 : ∀ k, F.emin = some k → 10 * (2 : ℝ) ^ k ≤ ω ^ 2) :
    ∃ x δ, (distLineRay l r).val? = some x ∧
      Spec.IsDistance (Spec.line (reals l.origin) (reals l.direction)) (Spec.ray (reals r.origin) (reals r.direction)) δ ∧
      |x - δ| ≤ 40 * ((2 : ℝ)⁻¹ ^ F.prec * Spec.dist (reals l.origin) (reals r.origin)) + 3 * ω := by
  have hl' := near_direction hld (by linarith [(abs_le.1 hl).2])
  have hr' := near_direction hrd (by linarith)
  have nlo : NearVec k l.origin (flOf l.origin) := fun i => (hlo i).near
  have nro : NearVec k r.origin (flOf r.origin) := fun i => (hro i).near
  have nld : NearVec 1 l.direction (flOf l.direction) := fun i => (hl' i).near
  have nrd : NearVec 1 r.direction (flOf r.direction) := fun i => (hr' i).near
  rw [nld.reals] at hl hpar ⊢
  rw [nrd.reals] at hr hpar ⊢
  rw [nlo.reals, nro.reals]
  have hD : 64 * (3 + 2) ≤ 2 ^ F.prec := le_trans (by norm_num) (Nat.pow_le_pow_right (by norm_num) hp)
  let tol : Tol (Fl F.toFloatFormat) := tolOf (fun x => |x.1| ≤ 45 * (2 : ℝ)⁻¹ ^ F.prec) (fun _ => False) (fun _ => False)
  obtain ⟨δ, h2, h3⟩ := C114_line_ray_parallel ⟨flOf l.origin, flOf l.direction⟩ ⟨flOf r.origin, flOf r.direction⟩ hp hmin hl hr hpar
    (fun x hx => @decide_eq_true _ (Classical.propDecidable _) hx) hω0 hω2
  have hden := (closest_err (flOf l.origin) (flOf l.direction) (flOf r.origin) (flOf r.direction) 0 hp hmin
    (by have := (abs_le.1 hl).2; change Spec.norm (Fl.vals (flOf l.direction)) - 1 ≤ _ at this; linarith) hr).1
  have hg0 : Spec.gram (Fl.vals (flOf l.direction)) (Fl.vals (flOf r.direction)) = 0 := gram_eq_zero_of_parallel hpar
  rw [hg0, sub_zero] at hden
  have e2 : distLineRay (⟨flOf l.origin, flOf l.direction⟩ : Line _ 3) ⟨flOf r.origin, flOf r.direction⟩ = distVecLine (flOf r.origin) ⟨flOf l.origin, flOf l.direction⟩ := by
    unfold distLineRay closestPointOnLineParameters
    simp only
    rw [show Tol.isZero _ _ = true from @decide_eq_true _ (Classical.propDecidable _) hden]
    rfl
  have a := nld.dot nld (by omega)
  have b := nld.dot nrd (by omega)
  have c := nrd.dot nrd (by omega)
  have m := (a.mul c (by omega)).sub (b.mul b (by omega)) (by omega)
  have e1 : distLineRay l r = distVecLine r.origin l := by
    unfold distLineRay closestPointOnLineParameters
    simp only
    rw [show Tol.isZero _ Tol.eps = true from hz _ _ m.val hden]
    rfl
  have hlow := dot_self_lower (flOf l.direction) hD (tiny_of_emin fun k hk => by have := hmin k hk; omega)
    (by linarith [(abs_le.1 hl).1])
  have m4 := NearVec.length ((nlo.vsub nro (by omega)).rejection nld hlow (by omega) (by omega)) (by omega)
  rw [e2] at h3
  exact ⟨_, δ, by rw [e1]; exact m4.val, h2, h3⟩
end

/-- **C155** A point and a segment in IEEE arithmetic: C142 holds for coordinates up to `2 ^ k` and segments of length at least `2 ^ (1 - j)`,
`2 k + D + j + 6 < emax`. -/
theorem C155_point_segment_partial (k j : ℕ) (hk : 2 * k + D + j + 6 < F.emax) (g : Segment (Ieee F) D) (v : Vec (Ieee F) D)
    (hg : ∀ i, AtMost k (g.source i) ∧ AtMost k (g.target i)) (hv : ∀ i, AtMost k (v i)) (hD : 64 * (D + 2) ≤ 2 ^ F.prec)
    {H W : ℝ} (hH : H = Spec.dist (reals g.source) (reals g.target)) (hW : W = Spec.dist (reals v) (reals g.source)) (hj : 2 ≤ H * 2 ^ j)
    (hsmall : ∀ k, F.emin = some k → k ≤ -2 * (F.prec : ℤ) ∧ (2 : ℝ) ^ ((k + 1) / 2) ≤ (2 : ℝ)⁻¹ ^ F.prec * H)
    {ω : ℝ} (hω : 0 ≤ ω) (hω2 : ∀ k, F.emin = some k → 2 * (D + 2) * (2 : ℝ) ^ k ≤ ω ^ 2) :
    ∃ x δ, (distSegmentVec g v).val? = some x ∧
      Spec.IsDistance {reals v} (Spec.segment (reals g.source) (reals g.target)) δ ∧
      δ - (5 * ((D + 2) * (2 : ℝ)⁻¹ ^ F.prec) * (Spec.norm (reals g.source) + H + W) + 3 * ω) ≤ x ∧
      x ≤ δ + W * |H - 1| + (6 * ((D + 2) * (2 : ℝ)⁻¹ ^ F.prec) * (Spec.norm (reals g.source) + H + W) + 5 * ((D + 2) * (2 : ℝ)⁻¹ ^ F.prec) * (W * H) + 4 * ω) := by
  have ns : NearVec k g.source (flOf g.source) := fun i => (hg i).1.near
  have nt : NearVec k g.target (flOf g.target) := fun i => (hg i).2.near
  have nv : NearVec k v (flOf v) := fun i => (hv i).near
  rw [ns.reals, nt.reals] at hH ⊢
  rw [nv.reals, ns.reals] at hW
  rw [nv.reals]
  have hj0 : (0 : ℝ) < 2 ^ j := by positivity
  have hH0 : 0 < H := by
    by_contra h
    have := mul_nonpos_of_nonpos_of_nonneg (not_lt.1 h) hj0.le
    linarith
  have hcom : H = Spec.dist (Fl.vals (flOf g.target)) (Fl.vals (flOf g.source)) := by rw [hH]; exact dist_comm' _ _
  obtain ⟨hDu, hu⟩ := dim_unit (F := F.toFloatFormat) hD
  have hlen := (segment_errs (⟨flOf g.source, flOf g.target⟩ : Segment (Fl F.toFloatFormat) D) hD hcom hH0 hsmall).2.2
  have hlow : 1 / 2 * H ≤ (length (vsub (flOf g.target) (flOf g.source))).1 := by
    have h1 := (abs_le.1 hlen).1
    have h2 : ((D : ℝ) + 4) * F.unit ≤ 1 / 2 := by linarith
    have h3 := mul_le_mul_of_nonneg_right h2 hH0.le
    change _ ≤ (length (vsub (flOf g.target) (flOf g.source))).1 - H at h1
    linarith
  have nd := nt.vsub ns (by omega)
  have nw := nv.vsub ns (by omega)
  have mp := (nw.dot nd (by omega)).div (nd.length (by omega)) (j := j)
    (by nlinarith [le_abs_self (length (vsub (flOf g.target) (flOf g.source))).1]) (by omega)
  have mc := (mp.stdMax (near_zero.mono (Nat.zero_le _))).stdMin (near_one.mono (Nat.zero_le _))
  have mc0 : Near 0 (stdMin (stdMax (dot (vsub v g.source) (vsub g.target g.source) / length (vsub g.target g.source)) 0) 1)
      (stdMin (stdMax (dot (vsub (flOf v) (flOf g.source)) (vsub (flOf g.target) (flOf g.source)) / length (vsub (flOf g.target) (flOf g.source))) 0) 1) := by
    refine ⟨mc.val, ?_⟩
    rw [Fl.val_stdMin, Fl.val_stdMax, Fl.val_one, Fl.val_zero, pow_zero, abs_of_nonneg (le_min (le_max_right _ _) zero_le_one)]
    exact min_le_right _ _
  have m1 := (ns.mono (by omega : k ≤ k + 1)).vadd (nd.vscale mc0 (by omega)) (by omega)
  have m2 := (m1.vsub (nv.mono (by omega)) (by omega)).length (by omega)
  have hne : Fl.vals (flOf g.source) ≠ Fl.vals (flOf g.target) := dist_pos_ne (lt_of_lt_of_eq hH0 hH)
  obtain ⟨δ, h1, h2⟩ := C142_lower ⟨flOf g.source, flOf g.target⟩ (flOf v) hD (fun k hk => (hsmall k hk).1) hne
    (by intro h; change (length (vsub (flOf g.target) (flOf g.source))).1 = 0 at h; linarith) hω hω2
  obtain ⟨δ', h3, h4⟩ := C142_upper ⟨flOf g.source, flOf g.target⟩ (flOf v) hD (by rw [← hH]; exact hH0) (by rw [← hH]; exact hsmall) hω hω2
  obtain rfl : δ = δ' := le_antisymm (h1.2 h3.1) (h3.2 h1.1)
  refine ⟨_, δ, m2.val, h1, ?_, ?_⟩
  · rw [← hH, ← hW] at h2; exact h2
  · rw [← hH, ← hW] at h4; exact h4

/-! ### Overflow -/

theorem bad_sqrt {a : Ieee F} (h : a.val? = none) : (HasSqrt.sqrt a).val? = none := by
  cases a <;> simp only [val?, reduceCtorEq] at h
  · rfl
  · next s => cases s <;> rfl

theorem bad_length {v : Vec (Ieee F) 3} (i : Fin 3) (h : (v i).val? = none) : (length v).val? = none := bad_sqrt (bad_dot ⟨i, .inl h⟩)

theorem bad_vecLine {v : Vec (Ieee F) 3} {l : Line (Ieee F) 3} (i : Fin 3) (h : (l.origin i - v i).val? = none) : (distVecLine v l).val? = none :=
  bad_length i (bad_sub (.inl h))

/-- **C155** With coordinates half as large as the largest power of two the distances are lost: the line through `(M, 0, 0)` along the first axis meets
the line through `(-M, 0, 0)` along the second, and the ray from there; the segment between these points contains the second. In all three cases the
distance is zero, but what is computed is infinite or NaN, for every tolerance. -/
theorem C155_counterexample [Tol (Ieee F)] (dbg : Bool) :
    ∃ (m n : Ieee F) (M : ℝ), M = 2 ^ (F.emax - 1) ∧ m.val? = some M ∧ n.val? = some (-M) ∧
      Spec.IsDistance (Spec.line (reals ![m, 0, 0]) (reals ![(1 : Ieee F), 0, 0])) (Spec.line (reals ![n, 0, 0]) (reals ![(0 : Ieee F), 1, 0])) 0 ∧
      (∀ v, distLineLine dbg (⟨![m, 0, 0], ![1, 0, 0]⟩ : Line (Ieee F) 3) ⟨![n, 0, 0], ![0, 1, 0]⟩ = .ok v → v.val? = none) ∧
      Spec.IsDistance (Spec.line (reals ![m, 0, 0]) (reals ![(1 : Ieee F), 0, 0])) (Spec.ray (reals ![n, 0, 0]) (reals ![(0 : Ieee F), 1, 0])) 0 ∧
      (distLineRay (⟨![m, 0, 0], ![1, 0, 0]⟩ : Line (Ieee F) 3) ⟨![n, 0, 0], ![0, 1, 0]⟩).val? = none ∧
      Spec.IsDistance {reals ![n, 0, 0]} (Spec.segment (reals ![n, 0, 0]) (reals ![m, 0, 0])) 0 ∧
      (distSegmentVec (⟨![n, 0, 0], ![m, 0, 0]⟩ : Segment (Ieee F) 3) ![n, 0, 0]).val? = none := by
  have hF := F.one_lt_emax
  have hn : F.emax - 1 < F.emax := by omega
  set m := pow2 F (F.emax - 1) hn with hm
  set M : ℝ := 2 ^ (F.emax - 1) with hM
  have hv : m.val? = some M := pow2_val _ _
  have hv' : (-m).val? = some (-M) := neg_val hv
  have h2 : M + M = 2 ^ F.emax := by
    rw [hM, ← two_mul, ← pow_succ']; congr 1; omega
  have o1 : (m - -m).val? = none := add_over hv (neg_val hv') le_rfl (.inl (by rw [neg_neg]; exact h2))
  have o2 : (-m - m).val? = none := add_over hv' hv' le_rfl (.inr (by rw [← h2]; ring))
  have b1 : reals ![m, 0, 0] = ![M, 0, 0] := by funext i; fin_cases i <;> rfl
  have b2 : reals ![-m, 0, 0] = ![-M, 0, 0] := by
    funext i; fin_cases i
    · show (-m).val?.getD 0 = _
      rw [hv']; rfl
    · rfl
    · rfl
  have b3 : reals ![(1 : Ieee F), 0, 0] = ![1, 0, 0] := by funext i; fin_cases i <;> rfl
  have b4 : reals ![(0 : Ieee F), 1, 0] = ![0, 1, 0] := by funext i; fin_cases i <;> rfl
  have meet : ∀ {A B : Set (Vec ℝ 3)} (p : Vec ℝ 3), p ∈ A → p ∈ B → Spec.IsDistance A B 0 := by
    intro A B p ha hb
    refine ⟨⟨p, ha, p, hb, (dist_self' _).symm⟩, ?_⟩
    rintro _ ⟨p, _, q, _, rfl⟩
    exact dist_nonneg' _ _
  have hline : (![-M, 0, 0] : Vec ℝ 3) ∈ Spec.line ![M, 0, 0] ![1, 0, 0] := by
    refine ⟨-M - M, ?_⟩
    funext i; fin_cases i <;> simp [Spec.pointAt]
  refine ⟨m, -m, M, rfl, hv, hv', ?_, ?_, ?_, ?_, ?_, ?_⟩
  · rw [b1, b2, b3, b4]
    refine meet _ hline ⟨0, ?_⟩
    funext i; fin_cases i <;> simp [Spec.pointAt]
  · intro v h
    have key : ∀ (x y : Res Unit) (z : Res (Ieee F)), (do x; y; z) = .ok v → z = .ok v := by
      intro x y z h
      cases x
      · cases h
      cases y
      · cases h
      exact h
    replace h := key _ _ _ h
    simp only at h
    split at h
    · cases h
      exact bad_vecLine 0 o2
    · cases h
      exact bad_div (bad_dot ⟨0, .inl o1⟩)
  · rw [b1, b2, b3, b4]
    refine meet _ hline ⟨0, le_rfl, ?_⟩
    funext i; fin_cases i <;> simp [Spec.pointAt]
  · unfold distLineRay
    split
    · next par hpar =>
      split
      · exact bad_vecLine 0 o1
      · unfold closestPointOnLineParameters at hpar
        simp only at hpar
        split at hpar
        · cases hpar
        cases hpar
        exact bad_length 0 (bad_sub (.inl (bad_add (.inr (bad_mul (.inr (bad_div (bad_sub (.inl (bad_mul (.inr (bad_dot ⟨0, .inr o1⟩))))))))))))
    · exact bad_vecLine 0 o1
  · rw [b1, b2]
    refine meet _ rfl ⟨0, le_rfl, zero_le_one, ?_⟩
    funext i; fin_cases i <;> simp
  · exact bad_length 0 (bad_sub (.inl (bad_add (.inr (bad_mul (.inl o1))))))
end Ieee

/-! ### Non-vacuity -/
section Examples
open Ieee
attribute [local instance] tolIe

theorem eqIe (a : Ieee double64) (x : ℝ) (ha : a.val? = some x) (hx : |x - 1| ≤ 0 + 6 * (2 : ℝ)⁻¹ ^ double64.prec) : isEq a 1 = true := by
  refine dec_true ⟨x, 1, ha, rfl, hx.trans ?_⟩
  have hu := unit64'
  change (2 : ℝ)⁻¹ ^ double64.prec ≤ _ at hu
  generalize (2 : ℝ)⁻¹ ^ double64.prec = μ at hu ⊢
  norm_num at hu ⊢; linarith

theorem zeroBelowIe {c : ℝ} (hc : c ≤ 100) (a : Ieee double64) (x : ℝ) (ha : a.val? = some x) (hx : |x| ≤ c * (2 : ℝ)⁻¹ ^ double64.prec) : isZero a = true := by
  refine dec_true ⟨x, ha, hx.trans ?_⟩
  have hu := unit64'
  change (2 : ℝ)⁻¹ ^ double64.prec ≤ _ at hu
  have hu0 : 0 ≤ (2 : ℝ)⁻¹ ^ double64.prec := by positivity
  generalize (2 : ℝ)⁻¹ ^ double64.prec = μ at hu hu0 ⊢
  have := mul_le_mul_of_nonneg_right hc hu0
  norm_num at hu ⊢; linarith

theorem q100_norm : Spec.norm (reals (q64 1 0 0)) = 1 := by rw [q64_vals]; exact norm3 _ _ _ 1 (by norm_num) (by norm_num)
theorem q010_norm : Spec.norm (reals (q64 0 1 0)) = 1 := by rw [q64_vals]; exact norm3 _ _ _ 1 (by norm_num) (by norm_num)

/-- The first axis and the line through (6, 2, 3) along the second have distance 3. -/
example : ∃ v x, distLineLine true ⟨q64 0 0 0, q64 1 0 0⟩ ⟨q64 6 2 3, q64 0 1 0⟩ = .ok v ∧ v.val? = some x ∧ |(|x|) - 3| ≤ 1 / 10 ^ 12 := by
  obtain ⟨v, x, δ, h1, h2, h3, h4⟩ := C155_skew_partial (F := double64) true 1000 1 (by show 1000 + 1 + 9 < 1024; norm_num) ⟨q64 0 0 0, q64 1 0 0⟩ ⟨q64 6 2 3, q64 0 1 0⟩
    (fun i => q64_most _ (by norm_num) _ _ _ _ _ _ i) (fun i => q64_most _ (by norm_num) _ _ _ _ _ _ i) (fun i => q64_fin _ _ _ _ _ _ i)
    (fun i => q64_fin _ _ _ _ _ _ i) (by show 9 ≤ 53; norm_num) min64 (η := 0) (by rw [q100_norm]; norm_num) (by rw [q010_norm]; norm_num) (by norm_num) eqIe
    (s := 1) (ω := 1 / 10 ^ 18) (by norm_num) (by rw [q64_vals, q64_vals]; simp [Spec.gram, Fin.sum_univ_three]) (by norm_num)
    (by show 64 * (2 : ℝ)⁻¹ ^ 53 ≤ _; norm_num) (by norm_num) (emin64_mul (by norm_num)) (nzIe (by norm_num))
  rw [q64_vals, q64_vals, q64_vals, q64_vals] at h3
  have hδ : δ = 3 := by
    apply le_antisymm
    · refine h3.2 ⟨![6, 0, 0], ⟨6, ?_⟩, ![6, 0, 3], ⟨-2, ?_⟩, ?_⟩
      · funext i; fin_cases i <;> simp [Spec.pointAt]
      · funext i; fin_cases i <;> simp [Spec.pointAt]
      · exact (dist3 _ _ _ _ _ _ 3 (by norm_num) (by norm_num)).symm
    · obtain ⟨_, ⟨t, rfl⟩, _, ⟨z, rfl⟩, rfl⟩ := h3.1
      unfold Spec.dist
      refine Real.le_sqrt_of_sq_le ?_
      rw [Fin.sum_univ_three]
      simp [Spec.pointAt]
      have k1 := sq_nonneg (t - 6 : ℝ)
      have k2 := sq_nonneg (-z + -2 : ℝ)
      linarith
  refine ⟨v, x, h1, h2, ?_⟩
  rw [hδ] at h4
  refine h4.trans ?_
  rw [q64_vals, q64_vals]
  have e : Spec.dist (![((0 : ℤ) : ℝ), (0 : ℤ), (0 : ℤ)] : Vec ℝ 3) ![(6 : ℤ), (2 : ℤ), (3 : ℤ)] = 7 := dist3 _ _ _ _ _ _ 7 (by norm_num) (by norm_num)
  rw [e]
  have hu := unit64'
  change (2 : ℝ)⁻¹ ^ double64.prec ≤ _ at hu
  generalize (2 : ℝ)⁻¹ ^ double64.prec = μ at hu ⊢
  norm_num at hu ⊢; linarith

/-- The first axis and the parallel line through (6, 3, 4) have distance 5. -/
example : ∃ v x, distLineLine true ⟨q64 0 0 0, q64 1 0 0⟩ ⟨q64 6 3 4, q64 1 0 0⟩ = .ok v ∧ v.val? = some x ∧ |x - 5| ≤ 1 / 10 ^ 8 := by
  obtain ⟨v, x, δ, h1, h2, h3, h4⟩ := C155_parallel_partial (F := double64) true 500 (by show 2 * 500 + 23 < 1024; norm_num) ⟨q64 0 0 0, q64 1 0 0⟩ ⟨q64 6 3 4, q64 1 0 0⟩
    (fun i => q64_most _ (by norm_num) _ _ _ _ _ _ i) (fun i => q64_most _ (by norm_num) _ _ _ _ _ _ i) (fun i => q64_fin _ _ _ _ _ _ i)
    (fun i => q64_fin _ _ _ _ _ _ i) (by show 9 ≤ 53; norm_num) min64 (η := 0) (by rw [q100_norm]; norm_num) (by rw [q100_norm]; norm_num) (by norm_num) eqIe
    (fun i j => by ring) (zeroBelowIe (by norm_num)) (ω := 1 / 10 ^ 9) (by norm_num) emin64_root
  rw [q64_vals, q64_vals, q64_vals] at h3
  have hδ : δ = 5 := by
    apply le_antisymm
    · refine h3.2 ⟨![6, 0, 0], ⟨6, ?_⟩, ![6, 3, 4], ⟨0, ?_⟩, ?_⟩
      · funext i; fin_cases i <;> simp [Spec.pointAt]
      · funext i; fin_cases i <;> simp [Spec.pointAt]
      · exact (dist3 _ _ _ _ _ _ 5 (by norm_num) (by norm_num)).symm
    · obtain ⟨_, ⟨t, rfl⟩, _, ⟨z, rfl⟩, rfl⟩ := h3.1
      unfold Spec.dist
      refine Real.le_sqrt_of_sq_le ?_
      rw [Fin.sum_univ_three]
      simp [Spec.pointAt]
      have k1 := sq_nonneg (t - (6 + z) : ℝ)
      linarith
  refine ⟨v, x, h1, h2, ?_⟩
  rw [hδ] at h4
  refine h4.trans ?_
  rw [q64_vals, q64_vals]
  have e : Spec.dist (![((0 : ℤ) : ℝ), (0 : ℤ), (0 : ℤ)] : Vec ℝ 3) ![(6 : ℤ), (3 : ℤ), (4 : ℤ)] ≤ 8 := dist3_le (by norm_num) (by norm_num)
  have hu := unit64'
  change (2 : ℝ)⁻¹ ^ double64.prec ≤ _ at hu
  generalize (2 : ℝ)⁻¹ ^ double64.prec = μ at hu ⊢
  have := mul_le_mul hu e (dist_nonneg' _ _) (by norm_num)
  norm_num at this ⊢; linarith

/-- The first axis and the ray from (6, -2, 3) along the second have distance 3. -/
example : ∃ x, (distLineRay ⟨q64 0 0 0, q64 1 0 0⟩ ⟨q64 6 (-2) 3, q64 0 1 0⟩).val? = some x ∧ |x - 3| ≤ 1 / 10 ^ 6 := by
  obtain ⟨x, δ, h2, h3, h4⟩ := C155_line_ray_partial (F := double64) 400 1 (by show 2 * 400 + 2 * 1 + 31 < 1024; norm_num) ⟨q64 0 0 0, q64 1 0 0⟩ ⟨q64 6 (-2) 3, q64 0 1 0⟩
    (fun i => q64_most _ (by norm_num) _ _ _ _ _ _ i) (fun i => q64_most _ (by norm_num) _ _ _ _ _ _ i) (fun i => q64_fin _ _ _ _ _ _ i)
    (fun i => q64_fin _ _ _ _ _ _ i) (by show 9 ≤ 53; norm_num) min64 (by rw [q100_norm]; norm_num) (by rw [q010_norm]; norm_num)
    (s := 1) (ω := 1 / 10 ^ 9) (by norm_num) (by rw [q64_vals, q64_vals]; simp [Spec.gram, Fin.sum_univ_three]) (by norm_num)
    (by show 256 * (2 : ℝ)⁻¹ ^ 53 ≤ _; norm_num) (by norm_num) (emin64_mul' (by norm_num)) emin64_root (nzIe (by norm_num))
  rw [q64_vals, q64_vals, q64_vals, q64_vals] at h3
  have hδ : δ = 3 := by
    apply le_antisymm
    · refine h3.2 ⟨![6, 0, 0], ⟨6, ?_⟩, ![6, 0, 3], ⟨2, by norm_num, ?_⟩, ?_⟩
      · funext i; fin_cases i <;> simp [Spec.pointAt]
      · funext i; fin_cases i <;> simp [Spec.pointAt]
      · exact (dist3 _ _ _ _ _ _ 3 (by norm_num) (by norm_num)).symm
    · obtain ⟨_, ⟨t, rfl⟩, _, ⟨z, _, rfl⟩, rfl⟩ := h3.1
      unfold Spec.dist
      refine Real.le_sqrt_of_sq_le ?_
      rw [Fin.sum_univ_three]
      simp [Spec.pointAt]
      have k1 := sq_nonneg (t - 6 : ℝ)
      have k2 := sq_nonneg (2 - z : ℝ)
      linarith
  refine ⟨x, h2, ?_⟩
  rw [hδ] at h4
  refine h4.trans ?_
  rw [q64_vals, q64_vals]
  have e : Spec.dist (![((0 : ℤ) : ℝ), (0 : ℤ), (0 : ℤ)] : Vec ℝ 3) ![(6 : ℤ), (-2 : ℤ), (3 : ℤ)] ≤ 7 := dist3_le (by norm_num) (by norm_num)
  have e1 : Spec.norm (![((0 : ℤ) : ℝ), (0 : ℤ), (0 : ℤ)] : Vec ℝ 3) ≤ 7 := norm3_le (by norm_num) (by norm_num)
  have e2 : Spec.norm (![(6 : ℤ), (-2 : ℤ), (3 : ℤ)] : Vec ℝ 3) ≤ 7 := norm3_le (by norm_num) (by norm_num)
  have hu := unit64'
  change (2 : ℝ)⁻¹ ^ double64.prec ≤ _ at hu
  generalize (2 : ℝ)⁻¹ ^ double64.prec = μ at hu ⊢
  have := mul_le_mul hu e (dist_nonneg' _ _) (by norm_num)
  have := mul_le_mul hu (add_le_add e1 e2) (add_nonneg (norm_nonneg' _) (norm_nonneg' _)) (by norm_num)
  norm_num at *; linarith

/-- The first axis and the ray from (6, 3, 4) along it have distance 5. -/
example : ∃ x, (distLineRay ⟨q64 0 0 0, q64 1 0 0⟩ ⟨q64 6 3 4, q64 1 0 0⟩).val? = some x ∧ |x - 5| ≤ 1 / 10 ^ 8 := by
  obtain ⟨x, δ, h2, h3, h4⟩ := C155_line_ray_parallel_partial (F := double64) 500 (by show 2 * 500 + 23 < 1024; norm_num) ⟨q64 0 0 0, q64 1 0 0⟩ ⟨q64 6 3 4, q64 1 0 0⟩
    (fun i => q64_most _ (by norm_num) _ _ _ _ _ _ i) (fun i => q64_most _ (by norm_num) _ _ _ _ _ _ i) (fun i => q64_fin _ _ _ _ _ _ i)
    (fun i => q64_fin _ _ _ _ _ _ i) (by show 9 ≤ 53; norm_num) min64 (by rw [q100_norm]; norm_num) (by rw [q100_norm]; norm_num)
    (fun i j => by ring) (zeroBelowIe (by norm_num)) (ω := 1 / 10 ^ 9) (by norm_num) emin64_root
  rw [q64_vals, q64_vals, q64_vals] at h3
  have hδ : δ = 5 := by
    apply le_antisymm
    · refine h3.2 ⟨![6, 0, 0], ⟨6, ?_⟩, ![6, 3, 4], ⟨0, le_rfl, ?_⟩, ?_⟩
      · funext i; fin_cases i <;> simp [Spec.pointAt]
      · funext i; fin_cases i <;> simp [Spec.pointAt]
      · exact (dist3 _ _ _ _ _ _ 5 (by norm_num) (by norm_num)).symm
    · obtain ⟨_, ⟨t, rfl⟩, _, ⟨z, _, rfl⟩, rfl⟩ := h3.1
      unfold Spec.dist
      refine Real.le_sqrt_of_sq_le ?_
      rw [Fin.sum_univ_three]
      simp [Spec.pointAt]
      have k1 := sq_nonneg (t - (6 + z) : ℝ)
      linarith
  refine ⟨x, h2, ?_⟩
  rw [hδ] at h4
  refine h4.trans ?_
  rw [q64_vals, q64_vals]
  have e : Spec.dist (![((0 : ℤ) : ℝ), (0 : ℤ), (0 : ℤ)] : Vec ℝ 3) ![(6 : ℤ), (3 : ℤ), (4 : ℤ)] ≤ 8 := dist3_le (by norm_num) (by norm_num)
  have hu := unit64'
  change (2 : ℝ)⁻¹ ^ double64.prec ≤ _ at hu
  generalize (2 : ℝ)⁻¹ ^ double64.prec = μ at hu ⊢
  have := mul_le_mul hu e (dist_nonneg' _ _) (by norm_num)
  norm_num at this ⊢; linarith

/-- The unit segment on the first axis and the point (0, 0, 7). -/
example : ∃ x δ, (distSegmentVec ⟨q64 0 0 0, q64 1 0 0⟩ (q64 0 0 7)).val? = some x ∧
    Spec.IsDistance {reals (q64 0 0 7)} (Spec.segment (reals (q64 0 0 0)) (reals (q64 1 0 0))) δ ∧ |x - δ| ≤ 1 / 10 ^ 10 := by
  obtain ⟨x, δ, h1, h2, h3, h4⟩ := C155_point_segment_partial (F := double64) (D := 3) 500 1 (by show 2 * 500 + 3 + 1 + 6 < 1024; norm_num) ⟨q64 0 0 0, q64 1 0 0⟩ (q64 0 0 7)
    (fun i => ⟨q64_most _ (by norm_num) _ _ _ _ _ _ i, q64_most _ (by norm_num) _ _ _ _ _ _ i⟩) (q64_most _ (by norm_num) _ _ _ _ _ _) (by show 64 * 5 ≤ 2 ^ 53; norm_num)
    (H := 1) (W := 7) (by rw [q64_vals, q64_vals]; exact (dist3 _ _ _ _ _ _ 1 (by norm_num) (by norm_num)).symm)
    (by rw [q64_vals, q64_vals]; exact (dist3 _ _ _ _ _ _ 7 (by norm_num) (by norm_num)).symm) (by norm_num) (small64' le_rfl)
    (ω := (2 : ℝ)⁻¹ ^ 500) (by positivity) root64
  refine ⟨x, δ, h1, h2, ?_⟩
  have e : Spec.norm (reals (q64 0 0 0)) = 0 := by rw [q64_vals]; exact norm3 _ _ _ 0 le_rfl (by norm_num)
  rw [e] at h3 h4
  have hu := unit64'
  have h5 := root64'
  change (2 : ℝ)⁻¹ ^ double64.prec ≤ _ at hu
  push_cast at h3 h4
  generalize (2 : ℝ)⁻¹ ^ double64.prec = μ at hu h3 h4 ⊢
  generalize (2 : ℝ)⁻¹ ^ 500 = ν at h3 h4 h5 ⊢
  rw [abs_le]
  norm_num at h3 h4 h5 hu ⊢
  constructor <;> linarith

/-- The refutation applies to the tolerance of the examples. -/
example : ∃ m n : Ieee double64, m.val? = some (2 ^ 1023) ∧ n.val? = some (-2 ^ 1023) ∧
    ∀ v, distLineLine true (⟨![m, 0, 0], ![1, 0, 0]⟩ : Line (Ieee double64) 3) ⟨![n, 0, 0], ![0, 1, 0]⟩ = .ok v → v.val? = none := by
  obtain ⟨m, n, M, rfl, h1, h2, -, h3, -⟩ := C155_counterexample (F := double64) true
  exact ⟨m, n, h1, h2, h3⟩
end Examples
end Verif
