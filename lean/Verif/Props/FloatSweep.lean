import Verif.Props.FloatCross
import Verif.Props.BentleyOttmann

set_option linter.unusedSectionVars false

/-
C147: what the intersection of segments of the plane and the sweep line report in floating point.
-/
namespace Verif
open Spec

/-- C147: the sweep in the release build, for every coordinate type (IEEE numbers with NaN included), every order of the events and
every behaviour of the status tree: it never reads out of range, reports at most three points per segment, and every reported point
is what `intersect` returns for two different segments of the input. -/
theorem C147_release {T : Type} [Zero T] [One T] [Add T] [Sub T] [Mul T] [Div T] [Neg T] [DecidableEq T] [Tol T] (o : StatusSearch)
    (segs : List (Segment T 2)) (es : List (BOEvent T)) (hes : es.Perm (boEvents segs)) :
    ∃ pts, bentleyOttmann false o segs es = .ok pts ∧ pts.length ≤ 3 * segs.length ∧ ∀ p ∈ pts, ∃ (i j : Nat) (si sj : Segment T 2), i ≠ j ∧
      segs[i]? = some si ∧ segs[j]? = some sj ∧ intersectSegment2 false si sj = .ok (some p) := by
  obtain ⟨pts, h1, h2, h3⟩ := bentleyOttmann_gen (dbg := false) (fun a b => by
    obtain ⟨r, hr, -⟩ := C98_partial a b Tol.eps
    exact ⟨r, hr⟩) o segs es hes
  exact ⟨pts, h1, h2, h3⟩

variable {F : FloatFormat}

/-- The exact quotient from the computed one. -/
theorem quot_back {n d : Fl F} {N Δ E κ : ℝ} (hu : F.unit ≤ 1 / 1024) (ht : F.tiny ≤ F.unit * F.unit) (hΔ : 0 < |Δ|)
    (hn : |n.1 - N| ≤ E) (hd : |d.1 - Δ| ≤ E) (hE : E = 9 * (F.unit * κ) * |Δ|) (hκ : 1 / 2 ≤ κ) (hbig : 72 * (F.unit * κ) ≤ 1)
    (hx : |(n / d).1| ≤ 2) : |(n / d).1 - N / Δ| ≤ 40 * (F.unit * κ) := by
  have hu0 := F.unit_pos
  have hΔ0 : Δ ≠ 0 := abs_pos.1 hΔ
  have hEΔ : E ≤ 1 / 8 * |Δ| := by
    rw [hE]
    exact mul_le_mul_of_nonneg_right (by linarith) hΔ.le
  have hE0 : 0 ≤ E := (abs_nonneg _).trans hn
  have hdl : 7 / 8 * |Δ| ≤ |d.1| := by
    have := abs_sub_abs_le_abs_sub Δ d.1
    rw [abs_sub_comm] at this
    linarith
  have hd0 : 0 < |d.1| := by linarith
  have hd0' : d.1 ≠ 0 := abs_pos.1 hd0
  rw [Fl.val_div] at hx ⊢
  set x := n.1 / d.1 with hxd
  have h1 := F.err x
  have h6 : F.unit * F.unit ≤ 1 / 1024 * F.unit := mul_le_mul_of_nonneg_right hu hu0.le
  have hx2 : |x| ≤ 201 / 100 := by
    have h2 := abs_sub_abs_le_abs_sub x (F.rnd x)
    rw [abs_sub_comm] at h2
    have h3 : F.unit * |x| ≤ 1 / 1024 * |x| := mul_le_mul_of_nonneg_right hu (abs_nonneg _)
    linarith
  have h4 : |x - N / Δ| ≤ 28 * (F.unit * κ) := by
    have e : x - N / Δ = ((n.1 - N) + x * (-(d.1 - Δ))) / Δ := by rw [hxd]; field_simp; ring
    rw [e, abs_div, div_le_iff₀ hΔ]
    refine (abs_add_le _ _).trans ?_
    rw [abs_mul, abs_neg]
    have h2 : |x| * |d.1 - Δ| ≤ 201 / 100 * E := mul_le_mul hx2 hd (abs_nonneg _) (by norm_num)
    have h5 : 28 * (F.unit * κ) * |Δ| = 28 / 9 * E := by rw [hE]; ring
    linarith
  have h7 : F.unit * (1 / 2) ≤ F.unit * κ := mul_le_mul_of_nonneg_left hκ hu0.le
  have h8 : F.unit * |x| ≤ F.unit * (201 / 100) := mul_le_mul_of_nonneg_left hx2 hu0.le
  have h9 := abs_sub_le (F.rnd x) x (N / Δ)
  linarith

section
variable [Tol (Fl F)]

/-- C147: what a point reported by `intersect(Segment2, Segment2)` is.  Sizes as in C97: the coordinates of the direction vectors and of the
difference of the sources are at most `L`, those of the first source at most `A`, `Δ` is the determinant of the directions, `u = 2^-prec`
and `72 u L² ≤ |Δ|`.  If the tolerance rejects parameters outside `[-θ, 1+θ]`, `θ ≤ 1`, then the lines through the exact segments have
a common point `q` on both segments prolonged by `θ + 40 u L² / |Δ|` times their length, and the reported point is within
`u (64 L³ / |Δ| + A)` of it. -/
theorem C147_point (dbg : Bool) (first second : Segment (Fl F) 2) (eps : Fl F) (hp : 10 ≤ F.prec) {L A Δ θ : ℝ} {a b c d : Vec ℝ 2}
    (ha : a = fun i => (first.source i).1) (hb : b = fun i => (first.target i).1) (hc : c = fun i => (second.source i).1)
    (hd : d = fun i => (second.target i).1) (hL1 : ∀ i, |b i - a i| ≤ L) (hL2 : ∀ i, |d i - c i| ≤ L) (hL3 : ∀ i, |c i - a i| ≤ L)
    (hL0 : 0 < L) (hA : ∀ i, |a i| ≤ A) (hΔ : Δ = (b 0 - a 0) * (d 1 - c 1) - (d 0 - c 0) * (b 1 - a 1))
    (hbig : 72 * (2 : ℝ)⁻¹ ^ F.prec * L ^ 2 ≤ |Δ|)
    (hsmall : ∀ k, F.emin = some k → k ≤ -2 * (F.prec : ℤ) ∧ (2 : ℝ) ^ ((k + 1) / 2) ≤ (2 : ℝ)⁻¹ ^ F.prec * L)
    (hθ : θ ≤ 1) (hl : ∀ x : Fl F, x.1 < -θ → Tol.isLess x 0 eps = true) (hg : ∀ x : Fl F, 1 + θ < x.1 → Tol.isGreater x 1 eps = true)
    {p : Vec (Fl F) 2} (h : intersectSegment2 dbg first second eps = .ok (some p)) :
    ∃ q, q ∈ Spec.segmentUpTo (θ + 40 * (2 : ℝ)⁻¹ ^ F.prec * (L ^ 2 / |Δ|)) a b ∧
      q ∈ Spec.segmentUpTo (θ + 40 * (2 : ℝ)⁻¹ ^ F.prec * (L ^ 2 / |Δ|)) c d ∧
      ∀ i, |(p i).1 - q i| ≤ (2 : ℝ)⁻¹ ^ F.prec * (64 * L ^ 3 / |Δ| + A) := by
  change 72 * F.unit * L ^ 2 ≤ |Δ| at hbig
  have hu0 := F.unit_pos
  have hu : F.unit ≤ 1 / 1024 := by
    unfold FloatFormat.unit
    calc (2 : ℝ)⁻¹ ^ F.prec ≤ (2 : ℝ)⁻¹ ^ 10 := pow_le_pow_of_le_one (by norm_num) (by norm_num) hp
      _ = 1 / 1024 := by norm_num
  obtain ⟨ht0, ht1, ht2⟩ := tiny_of_length hL0 hsmall
  have hΔ0 : 0 < |Δ| := lt_of_lt_of_le (by positivity) hbig
  have hΔne : Δ ≠ 0 := abs_pos.1 hΔ0
  set κ := L ^ 2 / |Δ| with hκdef
  have hκΔ : κ * |Δ| = L ^ 2 := by rw [hκdef]; field_simp
  have hΔle : |Δ| ≤ 2 * L ^ 2 := by
    have : ∀ {x y : ℝ}, |x| ≤ L → |y| ≤ L → |x * y| ≤ L ^ 2 := fun hx hy => by
      rw [abs_mul, pow_two]; exact mul_le_mul hx hy (abs_nonneg _) hL0.le
    have h5 := this (hL1 0) (hL2 1)
    have h6 := this (hL2 0) (hL1 1)
    rw [hΔ, sub_eq_add_neg]
    refine (abs_add_le _ _).trans ?_
    rw [abs_neg]
    linarith
  have hκ : 1 / 2 ≤ κ := by rw [hκdef, le_div_iff₀ hΔ0]; linarith
  have hκu : 72 * (F.unit * κ) ≤ 1 := by
    have : 72 * (F.unit * κ) * |Δ| ≤ 1 * |Δ| := by
      rw [show 72 * (F.unit * κ) * |Δ| = 72 * F.unit * (κ * |Δ|) by ring, hκΔ]; linarith
    exact le_of_mul_le_mul_right this hΔ0
  have hEκ : 9 * (F.unit * L ^ 2) = 9 * (F.unit * κ) * |Δ| := by rw [← hκΔ]; ring
  -- the computed differences
  have D : ∀ {x y : Fl F}, |x.1 - y.1| ≤ L → |(x - y).1 - (x.1 - y.1)| ≤ 65 / 64 * (F.unit * L) := fun h => sub_err h hu ht1
  have f : ∀ i, |(vsub first.target first.source i).1 - (b i - a i)| ≤ 65 / 64 * (F.unit * L) := fun i => by
    have := hL1 i; subst ha hb; exact D this
  have g : ∀ i, |(vsub second.target second.source i).1 - (d i - c i)| ≤ 65 / 64 * (F.unit * L) := fun i => by
    have := hL2 i; subst hc hd; exact D this
  have w : ∀ i, |(vsub second.source first.source i).1 - (c i - a i)| ≤ 65 / 64 * (F.unit * L) := fun i => by
    have := hL3 i; subst ha hc; exact D this
  have nw : ∀ i, |(-(vsub second.source first.source i)).1 - -(c i - a i)| ≤ 65 / 64 * (F.unit * L) := fun i => by
    rw [Fl.val_neg, show -(vsub second.source first.source i).1 - -(c i - a i) = -((vsub second.source first.source i).1 - (c i - a i)) by ring,
      abs_neg]
    exact w i
  have nL : ∀ i, |-(c i - a i)| ≤ L := fun i => by rw [abs_neg]; exact hL3 i
  have d1 := det_err hu ht2 (hL1 0) (hL2 1) (hL2 0) (hL1 1) (f 0) (g 1) (g 0) (f 1)
  have d2 := det_err hu ht2 (hL3 0) (hL2 1) (hL3 1) (hL2 0) (w 0) (g 1) (w 1) (g 0)
  have d3 := det_err hu ht2 (hL1 0) (nL 1) (hL1 1) (nL 0) (f 0) (nw 1) (f 1) (nw 0)
  rw [← hΔ] at d1
  -- the run
  set t' := (vsub second.source first.source 0 * vsub second.target second.source 1
      - vsub second.source first.source 1 * vsub second.target second.source 0) /
      (vsub first.target first.source 0 * vsub second.target second.source 1
      - vsub second.target second.source 0 * vsub first.target first.source 1) with ht'
  set s' := (vsub first.target first.source 0 * -vsub second.source first.source 1
      - vsub first.target first.source 1 * -vsub second.source first.source 0) /
      (vsub first.target first.source 0 * vsub second.target second.source 1
      - vsub second.target second.source 0 * vsub first.target first.source 1) with hs'
  obtain ⟨hrange, hpt⟩ : ¬ (Tol.isLess s' 0 eps || Tol.isGreater s' 1 eps || Tol.isLess t' 0 eps || Tol.isGreater t' 1 eps) = true ∧
      p = vadd first.source (vscale (vsub first.target first.source) t') := by
    unfold intersectSegment2 at h
    simp only at h
    split at h
    · cases h
    split at h
    · cases h
    next hr =>
      refine ⟨hr, ?_⟩
      unfold geoAssert at h
      split at h
      · cases h
      · cases h
        rfl
  simp only [Bool.or_eq_true, not_or] at hrange
  obtain ⟨⟨⟨c1, c2⟩, c3⟩, c4⟩ := hrange
  have s1 : -θ ≤ s'.1 := not_lt.1 fun hh => c1 (hl _ hh)
  have s2 : s'.1 ≤ 1 + θ := not_lt.1 fun hh => c2 (hg _ hh)
  have t1 : -θ ≤ t'.1 := not_lt.1 fun hh => c3 (hl _ hh)
  have t2 : t'.1 ≤ 1 + θ := not_lt.1 fun hh => c4 (hg _ hh)
  have p1 := quot_back hu ht0 hΔ0 d2 d1 hEκ hκ hκu (by rw [abs_le]; constructor <;> linarith)
  have p2 := quot_back hu ht0 hΔ0 d3 d1 hEκ hκ hκu (by rw [abs_le]; constructor <;> linarith)
  rw [← ht'] at p1
  rw [← hs'] at p2
  -- the exact point
  set t := ((c 0 - a 0) * (d 1 - c 1) - (c 1 - a 1) * (d 0 - c 0)) / Δ with htd
  set s := ((b 0 - a 0) * -(c 1 - a 1) - (b 1 - a 1) * -(c 0 - a 0)) / Δ with hsd
  have eT : t * Δ = (c 0 - a 0) * (d 1 - c 1) - (c 1 - a 1) * (d 0 - c 0) := div_mul_cancel₀ _ hΔne
  have eS : s * Δ = (b 0 - a 0) * -(c 1 - a 1) - (b 1 - a 1) * -(c 0 - a 0) := div_mul_cancel₀ _ hΔne
  have hq : (fun i => a i + t * (b i - a i)) = fun i => c i + s * (d i - c i) := by
    funext i
    refine mul_right_cancel₀ hΔne ?_
    rw [show (a i + t * (b i - a i)) * Δ = a i * Δ + (t * Δ) * (b i - a i) by ring, show (c i + s * (d i - c i)) * Δ = c i * Δ + (s * Δ) * (d i - c i) by ring, eT, eS, hΔ]
    fin_cases i
    · show a 0 * _ + _ * (b 0 - a 0) = c 0 * _ + _ * (d 0 - c 0)
      ring
    · show a 1 * _ + _ * (b 1 - a 1) = c 1 * _ + _ * (d 1 - c 1)
      ring
  obtain ⟨p11, p12⟩ := abs_le.1 p1
  obtain ⟨p21, p22⟩ := abs_le.1 p2
  have e40 : 40 * (2 : ℝ)⁻¹ ^ F.prec * κ = 40 * (F.unit * κ) := by rw [mul_assoc]; rfl
  rw [e40]
  refine ⟨fun i => a i + t * (b i - a i), ⟨t, by linarith, by linarith, rfl⟩, ⟨s, by linarith, by linarith, hq⟩, fun i => ?_⟩
  have ht3 : |t| ≤ 3 := by rw [abs_le]; constructor <;> linarith
  have huL : 0 < F.unit * L := mul_pos hu0 hL0
  have huuL : F.unit * (F.unit * L) ≤ 1 / 1024 * (F.unit * L) := mul_le_mul_of_nonneg_right hu huL.le
  have hκL : F.unit * L ≤ 2 * (F.unit * κ * L) := by
    have := mul_le_mul_of_nonneg_left hκ huL.le
    linarith
  have k1 : (F.unit * κ) * (F.unit * L) ≤ 1 / 72 * (F.unit * L) := mul_le_mul_of_nonneg_right (by linarith) huL.le
  have k2 : F.unit * ((F.unit * κ) * (F.unit * L)) ≤ 1 / 1024 * (1 / 72 * (F.unit * L)) := mul_le_mul hu k1 (by positivity) (by norm_num)
  have k3 : F.unit * ((F.unit * κ) * L) ≤ 1 / 72 * (F.unit * L) := by
    rw [show F.unit * ((F.unit * κ) * L) = (F.unit * κ) * (F.unit * L) by ring]; exact k1
  have ht1' : F.tiny ≤ F.unit * (F.unit * L) := by rw [← mul_assoc]; exact ht1
  have m1 : |(vscale (vsub first.target first.source) t' i).1 - (b i - a i) * t| ≤ 40 * (F.unit * κ * L) + 15 / 2 * (F.unit * L) := by
    refine (mul_err (Y := 3) (f i) p1 (hL1 i) ht3).trans ?_
    have e : (65 / 64 * (F.unit * L) * 3 + L * (40 * (F.unit * κ)) + 65 / 64 * (F.unit * L) * (40 * (F.unit * κ)))
        + F.unit * (L * 3 + (65 / 64 * (F.unit * L) * 3 + L * (40 * (F.unit * κ)) + 65 / 64 * (F.unit * L) * (40 * (F.unit * κ)))) + F.tiny
        = 387 / 64 * (F.unit * L) + 40 * (F.unit * κ * L) + 325 / 8 * ((F.unit * κ) * (F.unit * L)) + 195 / 64 * (F.unit * (F.unit * L))
          + 40 * (F.unit * ((F.unit * κ) * L)) + 325 / 8 * (F.unit * ((F.unit * κ) * (F.unit * L))) + F.tiny := by ring
    rw [e]
    linarith
  have hqb : |(b i - a i) * t + a i| ≤ 3 * L + A := by
    refine (abs_add_le _ _).trans (add_le_add ?_ (hA i))
    rw [abs_mul]
    calc |b i - a i| * |t| ≤ L * 3 := mul_le_mul (hL1 i) ht3 (abs_nonneg _) hL0.le
      _ = 3 * L := mul_comm _ _
  have hai : (first.source i).1 = a i := by rw [ha]
  have m2 := add_err (b := first.source i) (X := 3 * L + A) m1 (by rw [hai]; exact hqb)
  rw [hai] at m2
  rw [hpt]
  show |(first.source i + _).1 - (a i + t * (b i - a i))| ≤ _
  rw [Fl.add_comm', show a i + t * (b i - a i) = (b i - a i) * t + a i by ring]
  refine m2.trans ?_
  have eκ : (2 : ℝ)⁻¹ ^ F.prec * (64 * L ^ 3 / |Δ| + A) = 64 * (F.unit * κ * L) + F.unit * A := by
    show F.unit * (64 * L ^ 3 / |Δ| + A) = _
    rw [hκdef]; field_simp
  have e : 40 * (F.unit * κ * L) + 15 / 2 * (F.unit * L) + F.unit * (3 * L + A + (40 * (F.unit * κ * L) + 15 / 2 * (F.unit * L))) + F.tiny
      = 40 * (F.unit * κ * L) + 21 / 2 * (F.unit * L) + F.unit * A + 40 * (F.unit * ((F.unit * κ) * L)) + 15 / 2 * (F.unit * (F.unit * L))
        + F.tiny := by ring
  rw [eκ, e]
  linarith

/-- C147: the sweep in floating point (release build), for segments with coordinates up to `M`.  Every reported point belongs to two
different segments of the input: if their determinant `Δ` is at least `288 u M²`, then the exact segments, prolonged by the tolerance `θ`
and `160 u M² / |Δ|`, have a common point within `u (512 M³ / |Δ| + M)` of the reported point. -/
theorem C147_sweep (o : StatusSearch) (segs : List (Segment (Fl F) 2)) (es : List (BOEvent (Fl F))) (hes : es.Perm (boEvents segs)) (hp : 10 ≤ F.prec) {M θ : ℝ}
    (hM0 : 0 < M) (hM : ∀ s ∈ segs, ∀ i, |(s.source i).1| ≤ M ∧ |(s.target i).1| ≤ M)
    (hsmall : ∀ k, F.emin = some k → k ≤ -2 * (F.prec : ℤ) ∧ (2 : ℝ) ^ ((k + 1) / 2) ≤ (2 : ℝ)⁻¹ ^ F.prec * M)
    (hθ : θ ≤ 1) (hl : ∀ x : Fl F, x.1 < -θ → Tol.isLess x 0 Tol.eps = true) (hg : ∀ x : Fl F, 1 + θ < x.1 → Tol.isGreater x 1 Tol.eps = true) :
    ∃ pts, bentleyOttmann false o segs es = .ok pts ∧ pts.length ≤ 3 * segs.length ∧ ∀ p ∈ pts, ∃ (i j : Nat) (si sj : Segment (Fl F) 2), i ≠ j ∧
      segs[i]? = some si ∧ segs[j]? = some sj ∧
      ∀ Δ, Δ = ((si.target 0).1 - (si.source 0).1) * ((sj.target 1).1 - (sj.source 1).1) - ((sj.target 0).1 - (sj.source 0).1) * ((si.target 1).1 - (si.source 1).1) →
        288 * (2 : ℝ)⁻¹ ^ F.prec * M ^ 2 ≤ |Δ| →
        ∃ q, q ∈ Spec.segmentUpTo (θ + 160 * (2 : ℝ)⁻¹ ^ F.prec * (M ^ 2 / |Δ|)) (fun i => (si.source i).1) (fun i => (si.target i).1) ∧
          q ∈ Spec.segmentUpTo (θ + 160 * (2 : ℝ)⁻¹ ^ F.prec * (M ^ 2 / |Δ|)) (fun i => (sj.source i).1) (fun i => (sj.target i).1) ∧
          ∀ i, |(p i).1 - q i| ≤ (2 : ℝ)⁻¹ ^ F.prec * (512 * M ^ 3 / |Δ| + M) := by
  obtain ⟨pts, h1, h2, h3⟩ := C147_release o segs es hes
  refine ⟨pts, h1, h2, fun p hpm => ?_⟩
  obtain ⟨i, j, si, sj, hij, hi, hj, hint⟩ := h3 p hpm
  refine ⟨i, j, si, sj, hij, hi, hj, fun Δ hΔ hbig => ?_⟩
  have mi := hM si (List.mem_of_getElem? hi)
  have mj := hM sj (List.mem_of_getElem? hj)
  have hdiff : ∀ {x y : ℝ}, |x| ≤ M → |y| ≤ M → |x - y| ≤ 2 * M := fun hx hy => (abs_sub _ _).trans (by linarith)
  obtain ⟨q, q1, q2, q3⟩ := C147_point false si sj Tol.eps hp (L := 2 * M) (A := M) (θ := θ) rfl rfl rfl rfl (fun i => hdiff (mi i).2 (mi i).1)
    (fun i => hdiff (mj i).2 (mj i).1) (fun i => hdiff (mj i).1 (mi i).1) (by linarith) (fun i => (mi i).1) hΔ (by
      refine le_trans (le_of_eq ?_) hbig; ring)
    (fun k hk => by
      obtain ⟨k1, k2⟩ := hsmall k hk
      refine ⟨k1, k2.trans (mul_le_mul_of_nonneg_left (by linarith) (by positivity))⟩) hθ hl hg hint
  have e1 : 40 * (2 : ℝ)⁻¹ ^ F.prec * ((2 * M) ^ 2 / |Δ|) = 160 * (2 : ℝ)⁻¹ ^ F.prec * (M ^ 2 / |Δ|) := by ring
  have e2 : 64 * (2 * M) ^ 3 / |Δ| = 512 * M ^ 3 / |Δ| := by ring
  rw [e1] at q1 q2
  rw [e2] at q3
  exact ⟨q, q1, q2, q3⟩
end

section Examples
attribute [local instance] tol64

/-- The point reported for the segments from (0, 0) to (1, 1) and from (1, 0) to (-1, 1) is near (1/3, 1/3). -/
example {p : Vec (Fl binary64) 2} (h : intersectSegment2 false (⟨![0, 0], ![1, 1]⟩ : Segment (Fl binary64) 2) ⟨![1, 0], ![-1, 1]⟩ = .ok (some p)) (i : Fin 2) :
    |(p i).1 - 1 / 3| ≤ 1 / 10 ^ 12 := by
  obtain ⟨q, ⟨t, -, -, h1⟩, ⟨s, -, -, h2⟩, h3⟩ := C147_point false (⟨![0, 0], ![1, 1]⟩ : Segment (Fl binary64) 2) ⟨![1, 0], ![-1, 1]⟩ Tol.eps (by show 10 ≤ 53; norm_num)
    (L := 2) (A := 0) (Δ := 3) (θ := 1 / 10 ^ 6) (a := ![0, 0]) (b := ![1, 1]) (c := ![1, 0]) (d := ![-1, 1])
    (by funext i; fin_cases i <;> rfl) (by funext i; fin_cases i <;> rfl) (by funext i; fin_cases i <;> rfl)
    (by funext i; fin_cases i <;> simp) (by intro i; fin_cases i <;> simp) (by intro i; fin_cases i <;> (simp; try norm_num))
    (by intro i; fin_cases i <;> simp) (by norm_num) (by intro i; fin_cases i <;> simp) (by simp; norm_num)
    (by show 72 * (2 : ℝ)⁻¹ ^ 53 * 2 ^ 2 ≤ |3|; norm_num) (small64 (by norm_num)) (by norm_num)
    (fun x hx => decide_eq_true (by show x.1 < 0 - 1 / 10 ^ 6; linarith))
    (fun x hx => decide_eq_true (by show 1 < x.1 - 1 / 10 ^ 6; linarith)) h
  have hq : ∀ i, q i = 1 / 3 := by
    have e0 := congrFun (h1.symm.trans h2) 0
    have e1 := congrFun (h1.symm.trans h2) 1
    simp at e0 e1
    intro i
    rw [h1]
    fin_cases i <;> (simp; linarith)
  have := h3 i
  rw [hq i] at this
  refine this.trans ?_
  rw [abs_of_pos (by norm_num : (0 : ℝ) < 3)]
  show (2 : ℝ)⁻¹ ^ 53 * (64 * 2 ^ 3 / 3 + 0) ≤ 1 / 10 ^ 12
  norm_num

/-- The sweep over these two segments reports no point far from (1/3, 1/3), whatever the queue and the tree do. -/
example (o : StatusSearch) (es : List (BOEvent (Fl binary64)))
    (hes : es.Perm (boEvents [(⟨![0, 0], ![1, 1]⟩ : Segment (Fl binary64) 2), ⟨![1, 0], ![-1, 1]⟩])) :
    ∃ pts, bentleyOttmann false o [(⟨![0, 0], ![1, 1]⟩ : Segment (Fl binary64) 2), ⟨![1, 0], ![-1, 1]⟩] es = .ok pts ∧ pts.length ≤ 6 ∧
      ∀ p ∈ pts, ∀ i, |(p i).1 - 1 / 3| ≤ 1 / 10 ^ 11 := by
  obtain ⟨pts, h1, h2, h3⟩ := C147_sweep o _ es hes (by show 10 ≤ 53; norm_num) (M := 1) (θ := 1 / 10 ^ 6) (by norm_num)
    (by
      intro s hs i
      simp only [List.mem_cons, List.not_mem_nil, or_false] at hs
      rcases hs with rfl | rfl <;> fin_cases i <;> simp)
    (small64 (by norm_num)) (by norm_num)
    (fun x hx => decide_eq_true (by show x.1 < 0 - 1 / 10 ^ 6; linarith))
    (fun x hx => decide_eq_true (by show 1 < x.1 - 1 / 10 ^ 6; linarith))
  refine ⟨pts, h1, h2, fun p hp i => ?_⟩
  obtain ⟨a, b, sa, sb, hab, ha, hb, h⟩ := h3 p hp
  have key : ∀ Δ : ℝ, |Δ| = 3 → (2 : ℝ)⁻¹ ^ binary64.prec * (512 * 1 ^ 3 / |Δ| + 1) ≤ 1 / 10 ^ 11 := fun Δ hΔ => by
    rw [hΔ]
    show (2 : ℝ)⁻¹ ^ 53 * _ ≤ _
    norm_num
  have big : ∀ Δ : ℝ, |Δ| = 3 → 288 * (2 : ℝ)⁻¹ ^ binary64.prec * 1 ^ 2 ≤ |Δ| := fun Δ hΔ => by
    rw [hΔ]
    show 288 * (2 : ℝ)⁻¹ ^ 53 * _ ≤ _
    norm_num
  have hcase : (a = 0 ∧ b = 1) ∨ (a = 1 ∧ b = 0) := by
    have l1 := (List.getElem?_eq_some_iff.1 ha).1
    have l2 := (List.getElem?_eq_some_iff.1 hb).1
    simp only [List.length_cons, List.length_nil] at l1 l2
    omega
  rcases hcase with ⟨rfl, rfl⟩ | ⟨rfl, rfl⟩
  all_goals
    cases ha
    cases hb
  · obtain ⟨q, ⟨t, -, -, k1⟩, ⟨s, -, -, k2⟩, k3⟩ := h 3 (by simp; norm_num) (big 3 (by norm_num))
    have e0 := congrFun (k1.symm.trans k2) 0
    have e1 := congrFun (k1.symm.trans k2) 1
    simp at e0 e1
    have hq : q i = 1 / 3 := by rw [k1]; fin_cases i <;> (simp; linarith)
    have := k3 i
    rw [hq] at this
    exact this.trans (key 3 (by norm_num))
  · obtain ⟨q, ⟨t, -, -, k1⟩, ⟨s, -, -, k2⟩, k3⟩ := h (-3) (by simp; norm_num) (big (-3) (by norm_num))
    have e0 := congrFun (k1.symm.trans k2) 0
    have e1 := congrFun (k1.symm.trans k2) 1
    simp at e0 e1
    have hq : q i = 1 / 3 := by rw [k2]; fin_cases i <;> (simp; linarith)
    have := k3 i
    rw [hq] at this
    exact this.trans (key (-3) (by norm_num))
end Examples
end Verif
