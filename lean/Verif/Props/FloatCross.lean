import Verif.Props.FloatSegment
import Verif.Props.FloatSolid
import Verif.Props.Intersect
import Verif.Model.BentleyOttmann

set_option linter.unusedSectionVars false

/-
C97, C98: the intersection of 2D segments in floating point.
-/
namespace Verif
open Spec

section
variable {F : FloatFormat}

/-- The difference of two numbers. -/
theorem sub_err {a b : Fl F} {L : ℝ} (h : |a.1 - b.1| ≤ L) (hu : F.unit ≤ 1 / 1024) (ht : F.tiny ≤ F.unit * F.unit * L) :
    |(a - b).1 - (a.1 - b.1)| ≤ 65 / 64 * (F.unit * L) := by
  have hu0 := F.unit_pos
  have hL := (abs_nonneg _).trans h
  rw [Fl.val_sub]
  refine (F.err _).trans ?_
  have h1 := mul_le_mul_of_nonneg_left h hu0.le
  have h2 : F.unit * (F.unit * L) ≤ 1 / 1024 * (F.unit * L) := mul_le_mul_of_nonneg_right hu (by positivity)
  have h3 : F.unit * F.unit * L = F.unit * (F.unit * L) := by ring
  have h4 : 0 ≤ F.unit * L := by positivity
  linarith

/-- A difference of two products of differences. -/
theorem det_err {a b c d : Fl F} {x y z w L : ℝ} (hu : F.unit ≤ 1 / 1024) (ht : F.tiny ≤ F.unit * F.unit * L ^ 2)
    (hx : |x| ≤ L) (hy : |y| ≤ L) (hz : |z| ≤ L) (hw : |w| ≤ L)
    (ha : |a.1 - x| ≤ 65 / 64 * (F.unit * L)) (hb : |b.1 - y| ≤ 65 / 64 * (F.unit * L))
    (hc : |c.1 - z| ≤ 65 / 64 * (F.unit * L)) (hd : |d.1 - w| ≤ 65 / 64 * (F.unit * L)) :
    |(a * b - c * d).1 - (x * y - z * w)| ≤ 9 * (F.unit * L ^ 2) := by
  have hu0 := F.unit_pos
  have hL : 0 ≤ L := (abs_nonneg _).trans hx
  have hq : 0 ≤ F.unit * L ^ 2 := by positivity
  have huu : F.unit * (F.unit * L ^ 2) ≤ 1 / 1024 * (F.unit * L ^ 2) := mul_le_mul_of_nonneg_right hu hq
  have huuu : F.unit * (F.unit * (F.unit * L ^ 2)) ≤ 1 / 1024 * (1 / 1024 * (F.unit * L ^ 2)) :=
    mul_le_mul hu huu (by positivity) (by norm_num)
  have ht' : F.tiny ≤ F.unit * (F.unit * L ^ 2) := by rw [← mul_assoc]; exact ht
  have P : ∀ {a b : Fl F} {x y : ℝ}, |x| ≤ L → |y| ≤ L → |a.1 - x| ≤ 65 / 64 * (F.unit * L) → |b.1 - y| ≤ 65 / 64 * (F.unit * L) →
      |(a * b).1 - x * y| ≤ 25 / 8 * (F.unit * L ^ 2) := by
    intro a b x y hx hy ha hb
    refine (mul_err ha hb hx hy).trans ?_
    have e : (65 / 64 * (F.unit * L) * L + L * (65 / 64 * (F.unit * L)) + 65 / 64 * (F.unit * L) * (65 / 64 * (F.unit * L)))
        + F.unit * (L * L + (65 / 64 * (F.unit * L) * L + L * (65 / 64 * (F.unit * L)) + 65 / 64 * (F.unit * L) * (65 / 64 * (F.unit * L))))
        + F.tiny = 97 / 32 * (F.unit * L ^ 2) + (4225 / 4096 + 65 / 32) * (F.unit * (F.unit * L ^ 2))
          + 4225 / 4096 * (F.unit * (F.unit * (F.unit * L ^ 2))) + F.tiny := by ring
    rw [e]
    linarith
  have h1 := P hx hy ha hb
  have h2 := P hz hw hc hd
  have h3 : |(a * b).1 - (c * d).1 - (x * y - z * w)| ≤ 25 / 4 * (F.unit * L ^ 2) := by
    rw [show (a * b).1 - (c * d).1 - (x * y - z * w) = ((a * b).1 - x * y) + -((c * d).1 - z * w) by ring]
    refine (abs_add_le _ _).trans ?_
    rw [abs_neg]
    linarith
  have h4 : |x * y - z * w| ≤ 2 * L ^ 2 := by
    have : ∀ {x y : ℝ}, |x| ≤ L → |y| ≤ L → |x * y| ≤ L ^ 2 := fun hx hy => by
      rw [abs_mul, pow_two]; exact mul_le_mul hx hy (abs_nonneg _) hL
    have h5 := this hx hy
    have h6 := this hz hw
    rw [show x * y - z * w = x * y + -(z * w) by ring]
    refine (abs_add_le _ _).trans ?_
    rw [abs_neg]
    linarith
  rw [Fl.val_sub]
  refine (F.err_of h3 h4).trans ?_
  have e : 25 / 4 * (F.unit * L ^ 2) + F.unit * (2 * L ^ 2 + 25 / 4 * (F.unit * L ^ 2)) + F.tiny
      = 33 / 4 * (F.unit * L ^ 2) + 25 / 4 * (F.unit * (F.unit * L ^ 2)) + F.tiny := by ring
  rw [e]
  linarith

/-- A quotient of absolute value at most one. -/
theorem quot_err {n d : Fl F} {N Δ E κ : ℝ} (hu : F.unit ≤ 1 / 1024) (ht : F.tiny ≤ F.unit * F.unit) (hΔ : 0 < |Δ|)
    (hn : |n.1 - N| ≤ E) (hd : |d.1 - Δ| ≤ E) (hE : E = 9 * (F.unit * κ) * |Δ|) (hκ : 1 / 2 ≤ κ) (hbig : 72 * (F.unit * κ) ≤ 1)
    (hN : |N / Δ| ≤ 1) : |(n / d).1 - N / Δ| ≤ 40 * (F.unit * κ) := by
  have hu0 := F.unit_pos
  have hΔ0 : Δ ≠ 0 := abs_pos.1 hΔ
  have hEΔ : E ≤ 1 / 8 * |Δ| := by
    rw [hE]
    exact mul_le_mul_of_nonneg_right (by linarith) hΔ.le
  have hE0 : 0 ≤ E := (abs_nonneg _).trans hn
  have hdl : 7 / 8 * |Δ| ≤ |d.1| := by
    have := abs_sub_abs_le_abs_sub Δ d.1
    rw [abs_sub_comm] at this
    linarith
  have hd0 : 0 < |d.1| := by linarith
  have hd0' : d.1 ≠ 0 := abs_pos.1 hd0
  have h1 : |n.1 / d.1 - N / Δ| ≤ 36 * (F.unit * κ) := by
    have e : n.1 / d.1 - N / Δ = ((n.1 - N) + N / Δ * (-(d.1 - Δ))) / d.1 := by field_simp; ring
    rw [e, abs_div, div_le_iff₀ hd0]
    refine (abs_add_le _ _).trans ?_
    rw [abs_mul, abs_neg]
    have h2 : |N / Δ| * |d.1 - Δ| ≤ 1 * E := mul_le_mul hN hd (abs_nonneg _) zero_le_one
    have h3 : 36 * (F.unit * κ) * (7 / 8 * |Δ|) ≤ 36 * (F.unit * κ) * |d.1| := mul_le_mul_of_nonneg_left hdl (by positivity)
    have h4 : 36 * (F.unit * κ) * (7 / 8 * |Δ|) = 7 / 2 * E := by rw [hE]; ring
    linarith
  rw [Fl.val_div]
  refine (F.err_of h1 hN).trans ?_
  have h5 : F.unit * (1 + 36 * (F.unit * κ)) ≤ F.unit * (3 / 2) := mul_le_mul_of_nonneg_left (by linarith) hu0.le
  have h6 : F.unit * F.unit ≤ 1 / 1024 * F.unit := mul_le_mul_of_nonneg_right hu hu0.le
  have h7 : F.unit * (1 / 2) ≤ F.unit * κ := mul_le_mul_of_nonneg_left hκ hu0.le
  linarith

/-- **C97** The computed intersection point of two crossing 2D segments is accurate.  Let the coordinates of the direction vectors and of the
difference of the sources be at most `L` and those of the first source at most `A`, let `Δ` be the determinant of the directions and
`u = 2^-prec`.  If `72 u L² ≤ |Δ|` (the segments are not too parallel) and the tolerance accepts `Δ / 2` as nonzero and parameters within
`40 u L² / |Δ|` of the unit interval, then (assertions apart) a point is returned and each of its coordinates is within
`u (50 L³ / |Δ| + A)` of the exact common point. -/
theorem C97_accuracy [Tol (Fl F)] (first second : Segment (Fl F) 2) (eps : Fl F) (hp : 10 ≤ F.prec) {L A Δ : ℝ} {a b c d q : Vec ℝ 2}
    (ha : a = fun i => (first.source i).1) (hb : b = fun i => (first.target i).1) (hc : c = fun i => (second.source i).1)
    (hd : d = fun i => (second.target i).1) (hL1 : ∀ i, |b i - a i| ≤ L) (hL2 : ∀ i, |d i - c i| ≤ L) (hL3 : ∀ i, |c i - a i| ≤ L)
    (hL0 : 0 < L) (hA : ∀ i, |a i| ≤ A) (hΔ : Δ = (b 0 - a 0) * (d 1 - c 1) - (d 0 - c 0) * (b 1 - a 1))
    (hbig : 72 * (2 : ℝ)⁻¹ ^ F.prec * L ^ 2 ≤ |Δ|)
    (hsmall : ∀ k, F.emin = some k → k ≤ -2 * (F.prec : ℤ) ∧ (2 : ℝ) ^ ((k + 1) / 2) ≤ (2 : ℝ)⁻¹ ^ F.prec * L)
    (h1 : q ∈ Spec.segment a b) (h2 : q ∈ Spec.segment c d)
    (hz : ∀ x : Fl F, |Δ| / 2 ≤ |x.1| → Tol.isZero x eps = false)
    (hs : ∀ x : Fl F, -(40 * (2 : ℝ)⁻¹ ^ F.prec * (L ^ 2 / |Δ|)) ≤ x.1 → x.1 ≤ 1 + 40 * (2 : ℝ)⁻¹ ^ F.prec * (L ^ 2 / |Δ|) →
      Tol.isLess x 0 eps = false ∧ Tol.isGreater x 1 eps = false) :
    ∃ p, intersectSegment2 false first second eps = .ok (some p) ∧
      ∀ i, |(p i).1 - q i| ≤ (2 : ℝ)⁻¹ ^ F.prec * (50 * L ^ 3 / |Δ| + A) := by
  change 72 * F.unit * L ^ 2 ≤ |Δ| at hbig
  change ∀ x : Fl F, -(40 * F.unit * (L ^ 2 / |Δ|)) ≤ x.1 → x.1 ≤ 1 + 40 * F.unit * (L ^ 2 / |Δ|) →
      Tol.isLess x 0 eps = false ∧ Tol.isGreater x 1 eps = false at hs
  have hu0 := F.unit_pos
  have hu : F.unit ≤ 1 / 1024 := by
    unfold FloatFormat.unit
    calc (2 : ℝ)⁻¹ ^ F.prec ≤ (2 : ℝ)⁻¹ ^ 10 := pow_le_pow_of_le_one (by norm_num) (by norm_num) hp
      _ = 1 / 1024 := by norm_num
  obtain ⟨ht0, ht1, ht2⟩ := tiny_of_length hL0 hsmall
  have hΔ0 : 0 < |Δ| := lt_of_lt_of_le (by positivity) hbig
  have hΔne : Δ ≠ 0 := abs_pos.1 hΔ0
  set κ := L ^ 2 / |Δ| with hκdef
  have hκΔ : κ * |Δ| = L ^ 2 := by rw [hκdef]; field_simp
  have hΔle : |Δ| ≤ 2 * L ^ 2 := by
    have : ∀ {x y : ℝ}, |x| ≤ L → |y| ≤ L → |x * y| ≤ L ^ 2 := fun hx hy => by
      rw [abs_mul, pow_two]; exact mul_le_mul hx hy (abs_nonneg _) hL0.le
    have h5 := this (hL1 0) (hL2 1)
    have h6 := this (hL2 0) (hL1 1)
    rw [hΔ, sub_eq_add_neg]
    refine (abs_add_le _ _).trans ?_
    rw [abs_neg]
    linarith
  have hκ : 1 / 2 ≤ κ := by rw [hκdef, le_div_iff₀ hΔ0]; linarith
  have hκu : 72 * (F.unit * κ) ≤ 1 := by
    have : 72 * (F.unit * κ) * |Δ| ≤ 1 * |Δ| := by
      rw [show 72 * (F.unit * κ) * |Δ| = 72 * F.unit * (κ * |Δ|) by ring, hκΔ]; linarith
    exact le_of_mul_le_mul_right this hΔ0
  have hEκ : 9 * (F.unit * L ^ 2) = 9 * (F.unit * κ) * |Δ| := by rw [← hκΔ]; ring
  -- the exact parameters
  obtain ⟨t, t0, t1, hq1⟩ := h1
  obtain ⟨s, s0, s1, hq2⟩ := h2
  have e0 := congrFun (hq1.symm.trans hq2) 0
  have e1 := congrFun (hq1.symm.trans hq2) 1
  beta_reduce at e0 e1
  have hT : t = ((c 0 - a 0) * (d 1 - c 1) - (c 1 - a 1) * (d 0 - c 0)) / Δ := by
    rw [eq_div_iff hΔne, hΔ]
    linear_combination (d 1 - c 1) * e0 - (d 0 - c 0) * e1
  have hS : s = ((b 0 - a 0) * -(c 1 - a 1) - (b 1 - a 1) * -(c 0 - a 0)) / Δ := by
    rw [eq_div_iff hΔne, hΔ]
    linear_combination (b 1 - a 1) * e0 - (b 0 - a 0) * e1
  -- the computed differences
  have D : ∀ {x y : Fl F}, |x.1 - y.1| ≤ L → |(x - y).1 - (x.1 - y.1)| ≤ 65 / 64 * (F.unit * L) := fun h => sub_err h hu ht1
  have f : ∀ i, |(vsub first.target first.source i).1 - (b i - a i)| ≤ 65 / 64 * (F.unit * L) := fun i => by
    have := hL1 i; subst ha hb; exact D this
  have g : ∀ i, |(vsub second.target second.source i).1 - (d i - c i)| ≤ 65 / 64 * (F.unit * L) := fun i => by
    have := hL2 i; subst hc hd; exact D this
  have h : ∀ i, |(vsub second.source first.source i).1 - (c i - a i)| ≤ 65 / 64 * (F.unit * L) := fun i => by
    have := hL3 i; subst ha hc; exact D this
  have nh : ∀ i, |(-(vsub second.source first.source i)).1 - -(c i - a i)| ≤ 65 / 64 * (F.unit * L) := fun i => by
    rw [Fl.val_neg, show -(vsub second.source first.source i).1 - -(c i - a i) = -((vsub second.source first.source i).1 - (c i - a i)) by ring,
      abs_neg]
    exact h i
  have nL : ∀ i, |-(c i - a i)| ≤ L := fun i => by rw [abs_neg]; exact hL3 i
  -- determinants and parameters
  have d1 := det_err hu ht2 (hL1 0) (hL2 1) (hL2 0) (hL1 1) (f 0) (g 1) (g 0) (f 1)
  have d2 := det_err hu ht2 (hL3 0) (hL2 1) (hL3 1) (hL2 0) (h 0) (g 1) (h 1) (g 0)
  have d3 := det_err hu ht2 (hL1 0) (nL 1) (hL1 1) (nL 0) (f 0) (nh 1) (f 1) (nh 0)
  rw [← hΔ] at d1
  have p1 := quot_err hu ht0 hΔ0 d2 d1 hEκ hκ hκu (by rw [← hT, abs_of_nonneg t0]; exact t1)
  have p2 := quot_err hu ht0 hΔ0 d3 d1 hEκ hκ hκu (by rw [← hS, abs_of_nonneg s0]; exact s1)
  rw [← hT] at p1
  rw [← hS] at p2
  have c0 : Tol.isZero (vsub first.target first.source 0 * vsub second.target second.source 1
      - vsub second.target second.source 0 * vsub first.target first.source 1) eps = false := by
    apply hz
    have h3 := abs_sub_abs_le_abs_sub Δ (vsub first.target first.source 0 * vsub second.target second.source 1
      - vsub second.target second.source 0 * vsub first.target first.source 1).1
    rw [abs_sub_comm] at h3
    have : 9 * (F.unit * L ^ 2) ≤ 1 / 8 * |Δ| := by linarith
    linarith
  obtain ⟨c1, c2⟩ := hs _ (by have := (abs_le.1 p1).1; linarith) (by have := (abs_le.1 p1).2; linarith)
  obtain ⟨c3, c4⟩ := hs _ (by have := (abs_le.1 p2).1; linarith) (by have := (abs_le.1 p2).2; linarith)
  refine ⟨vadd first.source (vscale (vsub first.target first.source) ((vsub second.source first.source 0 * vsub second.target second.source 1
      - vsub second.source first.source 1 * vsub second.target second.source 0) /
      (vsub first.target first.source 0 * vsub second.target second.source 1
      - vsub second.target second.source 0 * vsub first.target first.source 1))), ?_, ?_⟩
  · unfold intersectSegment2
    simp only
    rw [if_neg (by rw [c0]; simp), c1, c2, c3, c4]
    rfl
  -- the point
  intro i
  have huL : 0 < F.unit * L := mul_pos hu0 hL0
  have huuL : F.unit * (F.unit * L) ≤ 1 / 1024 * (F.unit * L) := mul_le_mul_of_nonneg_right hu huL.le
  have hκL : F.unit * L ≤ 2 * (F.unit * κ * L) := by
    have := mul_le_mul_of_nonneg_left hκ huL.le
    linarith
  have k1 : (F.unit * κ) * (F.unit * L) ≤ 1 / 72 * (F.unit * L) := mul_le_mul_of_nonneg_right (by linarith) huL.le
  have k2 : F.unit * ((F.unit * κ) * (F.unit * L)) ≤ 1 / 1024 * (1 / 72 * (F.unit * L)) := mul_le_mul hu k1 (by positivity) (by norm_num)
  have k3 : F.unit * ((F.unit * κ) * L) ≤ 1 / 72 * (F.unit * L) := by
    rw [show F.unit * ((F.unit * κ) * L) = (F.unit * κ) * (F.unit * L) by ring]; exact k1
  have ht1' : F.tiny ≤ F.unit * (F.unit * L) := by rw [← mul_assoc]; exact ht1
  have m1 : |(vscale (vsub first.target first.source) ((vsub second.source first.source 0 * vsub second.target second.source 1
      - vsub second.source first.source 1 * vsub second.target second.source 0) /
      (vsub first.target first.source 0 * vsub second.target second.source 1
      - vsub second.target second.source 0 * vsub first.target first.source 1)) i).1 - (b i - a i) * t|
      ≤ 40 * (F.unit * κ * L) + 13 / 4 * (F.unit * L) := by
    refine (mul_err (Y := 1) (f i) p1 (hL1 i) (by rw [abs_of_nonneg t0]; exact t1)).trans ?_
    have e : (65 / 64 * (F.unit * L) * 1 + L * (40 * (F.unit * κ)) + 65 / 64 * (F.unit * L) * (40 * (F.unit * κ)))
        + F.unit * (L * 1 + (65 / 64 * (F.unit * L) * 1 + L * (40 * (F.unit * κ)) + 65 / 64 * (F.unit * L) * (40 * (F.unit * κ)))) + F.tiny
        = 129 / 64 * (F.unit * L) + 40 * (F.unit * κ * L) + 325 / 8 * ((F.unit * κ) * (F.unit * L)) + 65 / 64 * (F.unit * (F.unit * L))
          + 40 * (F.unit * ((F.unit * κ) * L)) + 325 / 8 * (F.unit * ((F.unit * κ) * (F.unit * L))) + F.tiny := by ring
    rw [e]
    linarith
  have hqi : q i = (b i - a i) * t + a i := by rw [hq1]; ring
  have hqb : |(b i - a i) * t + a i| ≤ L + A := by
    refine (abs_add_le _ _).trans (add_le_add ?_ (hA i))
    rw [abs_mul, abs_of_nonneg t0]
    calc |b i - a i| * t ≤ L * 1 := mul_le_mul (hL1 i) t1 t0 hL0.le
      _ = L := mul_one L
  have hai : (first.source i).1 = a i := by rw [ha]
  have m2 := add_err (b := first.source i) (X := L + A) m1 (by rw [hai]; exact hqb)
  rw [hai, ← hqi] at m2
  show |(first.source i + _).1 - q i| ≤ _
  rw [Fl.add_comm']
  refine m2.trans ?_
  have eκ : (2 : ℝ)⁻¹ ^ F.prec * (50 * L ^ 3 / |Δ| + A) = 50 * (F.unit * κ * L) + F.unit * A := by
    show F.unit * (50 * L ^ 3 / |Δ| + A) = _
    rw [hκdef]; field_simp
  have e : 40 * (F.unit * κ * L) + 13 / 4 * (F.unit * L) + F.unit * (L + A + (40 * (F.unit * κ * L) + 13 / 4 * (F.unit * L))) + F.tiny
      = 40 * (F.unit * κ * L) + 17 / 4 * (F.unit * L) + F.unit * A + 40 * (F.unit * ((F.unit * κ) * L)) + 13 / 4 * (F.unit * (F.unit * L))
        + F.tiny := by ring
  rw [eκ, e]
  linarith

/-- A third is no dyadic number. -/
theorem dyadic_ne_third {y : ℝ} {n : ℤ} {j : ℕ} (h : y * 2 ^ j = n) : 3 * y ≠ 1 := by
  intro hy
  have h1 : (3 : ℝ) * n = 2 ^ j := by rw [← h]; linear_combination (2 ^ j) * hy
  have h2 : (3 : ℤ) * n = 2 ^ j := by exact_mod_cast h1
  have h3 : ∀ j : ℕ, (2 : ℤ) ^ j % 3 = 1 ∨ (2 : ℤ) ^ j % 3 = 2 := fun j => by
    induction j with
    | zero => left; norm_num
    | succ j ih => rw [pow_succ]; omega
  have h4 := h3 j
  omega

/-- Numbers between a quarter and a half are multiples of `2^-(prec+1)`. -/
theorem Representable.on_grid {p : ℕ} {emin : Option ℤ} {y : ℝ} (hy : Representable p emin y) (h : 1 / 4 ≤ y) :
    ∃ n : ℤ, y * 2 ^ (p + 1) = n := by
  obtain ⟨m, e, hm, -, rfl⟩ := hy
  have he := two_zpow_pos e
  have h1 : (m : ℝ) < 2 ^ p := by exact_mod_cast (abs_lt.1 hm).2
  have h2 : (2 : ℝ) ^ (-2 : ℤ) < 2 ^ ((p : ℤ) + e) := by
    rw [zpow_add₀ (by norm_num), zpow_natCast]
    calc (2 : ℝ) ^ (-2 : ℤ) = 1 / 4 := by norm_num
      _ ≤ m * 2 ^ e := h
      _ < 2 ^ p * 2 ^ e := mul_lt_mul_of_pos_right h1 he
  have h3 : (-2 : ℤ) < p + e := (zpow_lt_zpow_iff_right₀ (by norm_num)).1 h2
  obtain ⟨k, hk⟩ : ∃ k : ℕ, e + (p + 1) = k := ⟨(e + (p + 1)).toNat, by omega⟩
  refine ⟨m * 2 ^ k, ?_⟩
  push_cast
  rw [mul_assoc, ← zpow_natCast, ← zpow_natCast, ← zpow_add₀ (by norm_num)]
  congr 2

/-- **C98 (as stated: false)** In every floating point format (whose subnormal numbers do not reach up to the unit roundoff), the segments
from (0, 0) to (1, 1) and from (1, 0) to (-1, 1) cross in (1/3, 1/3), and the debug build aborts on them: the points computed from the
two segments differ, and the assertion compares them with `==`. -/
theorem C98_counterexample [Tol (Fl F)] (eps : Fl F) (hemin : ∀ k, F.emin = some k → k ≤ -(F.prec : ℤ))
    (hz : ∀ x : Fl F, |x.1| = 3 → Tol.isZero x eps = false)
    (hs : ∀ x : Fl F, 1 / 4 ≤ x.1 → x.1 ≤ 1 / 2 → Tol.isLess x 0 eps = false ∧ Tol.isGreater x 1 eps = false) :
    (∃ q, q ∈ Spec.segment (fun i => ((![0, 0] : Vec (Fl F) 2) i).1) (fun i => ((![1, 1] : Vec (Fl F) 2) i).1) ∧
      q ∈ Spec.segment (fun i => ((![1, 0] : Vec (Fl F) 2) i).1) (fun i => ((![-1, 1] : Vec (Fl F) 2) i).1)) ∧
    intersectSegment2 true ⟨![0, 0], ![1, 1]⟩ ⟨![1, 0], ![-1, 1]⟩ eps = .error .assertFailed := by
  have hp1 := F.one_lt_prec
  have hexact : ∀ n : ℤ, |n| ≤ 4 → F.rnd n = n := fun n hn => by
    have h1 : |n| ≤ 2 ^ F.prec := hn.trans (by
      calc (4 : ℤ) = 2 ^ 2 := by norm_num
        _ ≤ 2 ^ F.prec := pow_le_pow_right₀ (by norm_num) (by omega))
    have h2 : Representable F.prec F.emin (n * (2 : ℝ) ^ (0 : ℤ)) := Representable.of_le F.one_lt_prec h1 fun k hk => F.emin_le k hk
    rw [zpow_zero, mul_one] at h2
    exact F.rounds.exact h2
  have quarter : F.rnd (1 / 4) = 1 / 4 := F.rounds.exact (by
    have : Representable F.prec F.emin ((2 : ℝ) ^ (-2 : ℤ)) := representable_two_pow F.one_lt_prec fun k hk => by
      have := hemin k hk; omega
    rwa [show (2 : ℝ) ^ (-2 : ℤ) = 1 / 4 by norm_num] at this)
  have half : F.rnd (1 / 2) = 1 / 2 := F.rounds.exact (by
    have : Representable F.prec F.emin ((2 : ℝ) ^ (-1 : ℤ)) := representable_two_pow F.one_lt_prec fun k hk => by
      have := hemin k hk; omega
    rwa [show (2 : ℝ) ^ (-1 : ℤ) = 1 / 2 by norm_num] at this)
  have y1 : 1 / 4 ≤ F.rnd (1 / 3) := by rw [← quarter]; exact F.rounds.mono (by norm_num)
  have y2 : F.rnd (1 / 3) ≤ 1 / 2 := by rw [← half]; exact F.rounds.mono (by norm_num)
  set y := F.rnd (1 / 3) with hy
  have yr : Representable F.prec F.emin y := F.rounds.mem _
  obtain ⟨n, hn⟩ := Representable.on_grid yr y1
  have y3 : F.rnd (-2 * y) = -2 * y := by
    obtain ⟨m, e, hm, he, hme⟩ := yr
    refine F.rounds.exact ⟨-m, e + 1, by rwa [abs_neg], fun k hk => (he k hk).trans (by omega), ?_⟩
    rw [hme, zpow_add₀ (by norm_num)]; push_cast; ring
  have y4 : F.rnd (1 + -2 * y) = 1 + -2 * y := by
    have e : 1 + -2 * y = ((2 ^ F.prec - n : ℤ) : ℝ) * (2 : ℝ) ^ (-(F.prec : ℤ)) := by
      push_cast
      rw [← hn, zpow_neg, zpow_natCast, pow_succ]
      field_simp
      ring
    rw [e]
    refine F.rounds.exact (Representable.of_le F.one_lt_prec ?_ hemin)
    have h5 : (n : ℝ) ≤ 2 ^ F.prec := by
      rw [← hn, pow_succ]
      calc y * (2 ^ F.prec * 2) ≤ 1 / 2 * (2 ^ F.prec * 2) := mul_le_mul_of_nonneg_right y2 (by positivity)
        _ = 2 ^ F.prec := by ring
    have h6 : (0 : ℝ) ≤ n := by rw [← hn]; positivity
    have h5' : n ≤ 2 ^ F.prec := by exact_mod_cast h5
    have h6' : 0 ≤ n := by exact_mod_cast h6
    rw [abs_of_nonneg (by omega)]
    omega
  constructor
  · refine ⟨fun _ => 1 / 3, ⟨1 / 3, by norm_num, by norm_num, ?_⟩, ⟨1 / 3, by norm_num, by norm_num, ?_⟩⟩
    · funext i
      fin_cases i <;> simp
    · funext i
      fin_cases i <;> simp
      norm_num
  -- the computation
  have r0 : F.rnd 0 = 0 := F.rounds.zero
  have r1 : F.rnd 1 = 1 := by simpa using hexact 1 (by norm_num)
  have r2 : F.rnd (-2) = -2 := by simpa using hexact (-2) (by norm_num)
  have r3 : F.rnd 3 = 3 := by simpa using hexact 3 (by norm_num)
  set f : Segment (Fl F) 2 := ⟨![0, 0], ![1, 1]⟩ with hf
  set g : Segment (Fl F) 2 := ⟨![1, 0], ![-1, 1]⟩ with hg
  have v1 : ∀ i, (vsub f.target f.source i).1 = 1 := by
    intro i
    fin_cases i <;> simp [vsub, hf, r1]
  have v2 : (vsub g.target g.source 0).1 = -2 := by
    simp only [vsub, hg, Fl.val_sub]
    simp
    rw [show (-1 - 1 : ℝ) = -2 by norm_num, r2]
  have v3 : (vsub g.target g.source 1).1 = 1 := by simp [vsub, hg, r1]
  have v4 : (vsub g.source f.source 0).1 = 1 := by simp [vsub, hf, hg, r1]
  have v5 : (vsub g.source f.source 1).1 = 0 := by simp [vsub, hf, hg, r0]
  have hdet : (vsub f.target f.source 0 * vsub g.target g.source 1 - vsub g.target g.source 0 * vsub f.target f.source 1).1 = 3 := by
    rw [Fl.val_sub, Fl.val_mul, Fl.val_mul, v1, v1, v2, v3, mul_one, mul_one, r1, r2, show (1 - -2 : ℝ) = 3 by norm_num, r3]
  set D := vsub f.target f.source 0 * vsub g.target g.source 1 - vsub g.target g.source 0 * vsub f.target f.source 1 with hD
  have ht : ((vsub g.source f.source 0 * vsub g.target g.source 1 - vsub g.source f.source 1 * vsub g.target g.source 0) / D).1 = y := by
    rw [Fl.val_div, hdet, Fl.val_sub, Fl.val_mul, Fl.val_mul, v2, v3, v4, v5, mul_one, zero_mul, r0, r1, sub_zero, r1]
  have hs' : ((vsub f.target f.source 0 * -vsub g.source f.source 1 - vsub f.target f.source 1 * -vsub g.source f.source 0) / D).1 = y := by
    rw [Fl.val_div, hdet, Fl.val_sub, Fl.val_mul, Fl.val_mul, Fl.val_neg, Fl.val_neg, v1, v1, v4, v5, neg_zero, mul_zero, r0, one_mul,
      show F.rnd (-1) = -1 by rw [F.rounds.odd, r1], zero_sub, neg_neg, r1]
  set t := (vsub g.source f.source 0 * vsub g.target g.source 1 - vsub g.source f.source 1 * vsub g.target g.source 0) / D with htdef
  set s := (vsub f.target f.source 0 * -vsub g.source f.source 1 - vsub f.target f.source 1 * -vsub g.source f.source 0) / D with hsdef
  have t1 := hs t (by rw [ht]; exact y1) (by rw [ht]; exact y2)
  have s1 := hs s (by rw [hs']; exact y1) (by rw [hs']; exact y2)
  have hne : ¬ vadd f.source (vscale (vsub f.target f.source) t) 0 = vadd g.source (vscale (vsub g.target g.source) s) 0 := by
    intro h
    have h7 : F.rnd (0 + F.rnd (1 * y)) = F.rnd (1 + F.rnd (-2 * y)) := by
      have h8 := congrArg Subtype.val h
      have e1 : (vadd f.source (vscale (vsub f.target f.source) t) 0).1
          = F.rnd ((f.source 0).1 + F.rnd ((vsub f.target f.source 0).1 * t.1)) := rfl
      have e2 : (vadd g.source (vscale (vsub g.target g.source) s) 0).1
          = F.rnd ((g.source 0).1 + F.rnd ((vsub g.target g.source 0).1 * s.1)) := rfl
      rw [e1, e2, v1, v2, ht, hs'] at h8
      exact h8
    rw [zero_add, one_mul, F.rounds.exact yr, F.rounds.exact yr, y3, y4] at h7
    exact dyadic_ne_third hn (by linarith)
  set P := vadd f.source (vscale (vsub f.target f.source) t) with hP
  set Q := vadd g.source (vscale (vsub g.target g.source) s) with hQ
  have e : intersectSegment2 true f g eps = if Tol.isZero D eps then .ok none else
      if Tol.isLess s 0 eps || Tol.isGreater s 1 eps || Tol.isLess t 0 eps || Tol.isGreater t 1 eps then .ok none
      else geoAssert true (decide (P 0 = Q 0) && decide (P 1 = Q 1)) >>= fun _ => .ok (some P) := rfl
  rw [e, hz D (by rw [hdet]; norm_num), t1.1, t1.2, s1.1, s1.2, decide_eq_false hne, Bool.false_and]
  rfl

/-- **C98 (partial)** The release build never fails, and a debug build that gets past the assertion returns the same. -/
theorem C98_partial {T : Type} [Zero T] [One T] [Add T] [Sub T] [Mul T] [Div T] [Neg T] [DecidableEq T] [Tol T]
    (first second : Segment T 2) (eps : T) :
    ∃ r, intersectSegment2 false first second eps = .ok r ∧
      (intersectSegment2 true first second eps = .ok r ∨
        (r.isSome ∧ intersectSegment2 true first second eps = .error .assertFailed)) := by
  unfold intersectSegment2
  dsimp only
  split
  · exact ⟨none, rfl, .inl rfl⟩
  split
  · exact ⟨none, rfl, .inl rfl⟩
  refine ⟨_, rfl, ?_⟩
  simp only [geoAssert]
  split
  · right; exact ⟨rfl, rfl⟩
  · left; rfl
end

section Examples
attribute [local instance] tol64

set_option exponentiation.threshold 600 in
/-- In `double`. -/
example : intersectSegment2 true (⟨![0, 0], ![1, 1]⟩ : Segment (Fl binary64) 2) ⟨![1, 0], ![-1, 1]⟩ = .error .assertFailed := by
  refine (C98_counterexample _ ?_ ?_ ?_).2
  · intro k hk
    obtain rfl : k = -1074 := (Option.some.inj hk).symm
    show (-1074 : ℤ) ≤ -(53 : ℕ)
    norm_num
  · intro x hx
    show decide (|x.1| < 1 / 10 ^ 6) = false
    rw [hx]; norm_num
  · intro x h1 h2
    refine ⟨decide_eq_false ?_, decide_eq_false ?_⟩
    · show ¬ x.1 < 0 - 1 / 10 ^ 6
      linarith
    · show ¬ (1 : ℝ) < x.1 - 1 / 10 ^ 6
      linarith

/-- The same segments in the release build: the returned point is accurate. -/
example : ∃ p, intersectSegment2 false (⟨![0, 0], ![1, 1]⟩ : Segment (Fl binary64) 2) ⟨![1, 0], ![-1, 1]⟩ = .ok (some p) ∧
    ∀ i, |(p i).1 - 1 / 3| ≤ 1 / 10 ^ 13 := by
  have key := C97_accuracy (⟨![0, 0], ![1, 1]⟩ : Segment (Fl binary64) 2) ⟨![1, 0], ![-1, 1]⟩ Tol.eps (by show 10 ≤ 53; norm_num)
    (L := 2) (A := 0) (Δ := 3) (a := ![0, 0]) (b := ![1, 1]) (c := ![1, 0]) (d := ![-1, 1]) (q := fun _ => 1 / 3)
    (by funext i; fin_cases i <;> rfl) (by funext i; fin_cases i <;> rfl) (by funext i; fin_cases i <;> rfl)
    (by funext i; fin_cases i <;> simp) (by intro i; fin_cases i <;> simp) (by intro i; fin_cases i <;> (simp; try norm_num))
    (by intro i; fin_cases i <;> simp) (by norm_num) (by intro i; fin_cases i <;> simp) (by simp; norm_num)
    (by show 72 * (2 : ℝ)⁻¹ ^ 53 * 2 ^ 2 ≤ |3|; norm_num) (small64 (by norm_num))
    ⟨1 / 3, by norm_num, by norm_num, by funext i; fin_cases i <;> simp⟩
    ⟨1 / 3, by norm_num, by norm_num, by funext i; fin_cases i <;> (simp; try norm_num)⟩
    (by
      intro x hx
      refine decide_eq_false ?_
      rw [abs_of_pos (by norm_num : (0 : ℝ) < 3)] at hx
      rw [not_lt]; refine le_trans ?_ hx; norm_num)
    (by
      intro x h1 h2
      change -(40 * (2 : ℝ)⁻¹ ^ 53 * (2 ^ 2 / |3|)) ≤ x.1 at h1
      change x.1 ≤ 1 + 40 * (2 : ℝ)⁻¹ ^ 53 * (2 ^ 2 / |3|) at h2
      rw [abs_of_pos (by norm_num : (0 : ℝ) < 3)] at h1 h2
      refine ⟨decide_eq_false ?_, decide_eq_false ?_⟩
      · show ¬ x.1 < 0 - 1 / 10 ^ 6
        rw [not_lt]; refine le_trans ?_ h1; norm_num
      · show ¬ (1 : ℝ) < x.1 - 1 / 10 ^ 6
        rw [not_lt]
        have : 40 * (2 : ℝ)⁻¹ ^ 53 * (2 ^ 2 / 3) ≤ 1 / 10 ^ 6 := by norm_num
        linarith)
  obtain ⟨p, h1, h2⟩ := key
  refine ⟨p, h1, fun i => (h2 i).trans ?_⟩
  rw [abs_of_pos (by norm_num : (0 : ℝ) < 3)]
  show (2 : ℝ)⁻¹ ^ 53 * (50 * 2 ^ 3 / 3 + 0) ≤ 1 / 10 ^ 13
  norm_num
/-- C98: the release build answers, on these segments too. -/
example : ∃ r, intersectSegment2 false (⟨![0, 0], ![1, 1]⟩ : Segment (Fl binary64) 2) ⟨![1, 0], ![-1, 1]⟩ Tol.eps = .ok r := by
  classical
  obtain ⟨r, h, -⟩ := C98_partial (⟨![0, 0], ![1, 1]⟩ : Segment (Fl binary64) 2) ⟨![1, 0], ![-1, 1]⟩ Tol.eps
  exact ⟨r, h⟩
end Examples
end Verif
