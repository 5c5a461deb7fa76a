import Verif.Props.FloatDistance
import Verif.Props.FloatBox
import Verif.Props.FloatSphere
import Verif.Props.IeeeFinite
import Mathlib.Analysis.SpecialFunctions.Trigonometric.ArctanDeriv
import Mathlib.Analysis.Calculus.MeanValue

set_option linter.unusedSectionVars false

/-
C148: projections, measures of cones, boxes from an edge length and centres of boxes in floating point.
-/
namespace Verif
open Spec

section
variable {F : FloatFormat} {D : ℕ}

/-- The same list of points, exactly. -/
theorem extremes_exist (dir : Vec ℝ D) (pts : List (Vec ℝ D)) (hne : pts ≠ []) : ∃ lo hi,
    IsLeast {x | ∃ p ∈ pts, x = ∑ i, p i * dir i} lo ∧ IsGreatest {x | ∃ p ∈ pts, x = ∑ i, p i * dir i} hi := by
  have hfin : {x | ∃ p ∈ pts, x = ∑ i, p i * dir i}.Finite := by
    refine (List.finite_toSet (pts.map fun p => ∑ i, p i * dir i)).subset ?_
    rintro x ⟨p, hp, rfl⟩
    exact List.mem_map.2 ⟨p, hp, rfl⟩
  obtain ⟨q, hq⟩ := List.exists_mem_of_ne_nil pts hne
  have hn : {x | ∃ p ∈ pts, x = ∑ i, p i * dir i}.Nonempty := ⟨_, q, hq, rfl⟩
  obtain ⟨lo, h1, h2⟩ := Set.exists_min_image _ id hfin hn
  obtain ⟨hi, h3, h4⟩ := Set.exists_max_image _ id hfin hn
  exact ⟨lo, hi, ⟨h1, fun x hx => h2 x hx⟩, ⟨h3, fun x hx => h4 x hx⟩⟩

/-- C148: the extreme projections on any direction are accurate.  `R` and `N` bound the lengths of the points and of the direction. -/
theorem C148_extreme [Tol (Fl F)] [HasLimits (Fl F)] (dbg : Bool) (dir : Vec (Fl F) D) (pts : List (Vec (Fl F) D)) (hne : pts ≠ [])
    (hdir : dbg = true → isEq (length dir) 1 = true) (hD : 64 * (D + 2) ≤ 2 ^ F.prec) (hmin : ∀ k, F.emin = some k → k ≤ -2 * (F.prec : ℤ))
    {R N ω : ℝ} (hR : ∀ p ∈ pts, Spec.norm (fun i => (p i).1) ≤ R) (hN : Spec.norm (fun i => (dir i).1) ≤ N)
    (hω0 : 0 ≤ ω) (hω : ∀ k, F.emin = some k → (2 : ℝ) ^ k ≤ ω)
    (hmax : 2 * (R * N) + 1 ≤ (HasLimits.maxVal : Fl F).1 ∧ (HasLimits.lowest : Fl F).1 ≤ -(2 * (R * N) + 1)) :
    ∃ m lo hi, extremePointsAlongDirection dbg dir pts = .ok m ∧
      IsLeast {x | ∃ p ∈ pts, x = ∑ i, (p i).1 * (dir i).1} lo ∧ IsGreatest {x | ∃ p ∈ pts, x = ∑ i, (p i).1 * (dir i).1} hi ∧
      |m.min.1 - lo| ≤ 2 * (D + 2) * ((2 : ℝ)⁻¹ ^ F.prec * (R * N) + ω) ∧ |m.max.1 - hi| ≤ 2 * (D + 2) * ((2 : ℝ)⁻¹ ^ F.prec * (R * N) + ω) := by
  have ht := tiny_of_emin hmin
  have hu0 := F.unit_pos
  have ht0 := F.tiny_nonneg
  obtain ⟨f1, f2, f3, f4⟩ := dim_facts hD ht
  have hD0 : (0 : ℝ) ≤ D := by positivity
  have htω : F.tiny ≤ ω := by
    unfold FloatFormat.tiny
    split
    · exact hω0
    · next k hk => exact hω k hk
  have hN0 : 0 ≤ N := (norm_nonneg' _).trans hN
  obtain ⟨q0, hq0⟩ := List.exists_mem_of_ne_nil pts hne
  have hR0 : 0 ≤ R := (norm_nonneg' _).trans (hR q0 hq0)
  have hRN : 0 ≤ R * N := mul_nonneg hR0 hN0
  have hprod : ∀ p ∈ pts, Spec.norm (fun i => (p i).1) * Spec.norm (fun i => (dir i).1) ≤ R * N := fun p hp =>
    mul_le_mul (hR p hp) hN (norm_nonneg' _) hR0
  have hraw : ∀ p ∈ pts, |(dot p dir).1 - ∑ i, (p i).1 * (dir i).1| ≤ 8 / 5 * (((D + 2) * F.unit) * (R * N)) + 2 * ((D + 2) * F.tiny) := fun p hp => by
    refine (dot_abs p dir (fun i => (p i).1) (fun i => by rw [sub_self, abs_zero]; positivity) hD ht).trans ?_
    have := mul_le_mul_of_nonneg_left (hprod p hp) (show 0 ≤ ((D : ℝ) + 2) * F.unit by positivity)
    change _ ≤ _ at this
    show 8 / 5 * (((D + 2) * F.unit) * (Spec.norm (fun i => (p i).1) * Spec.norm (fun i => (dir i).1))) + _ ≤ _
    linarith
  set e := 2 * ((D : ℝ) + 2) * (F.unit * (R * N) + ω) with he
  have herr : ∀ p ∈ pts, |(dot p dir).1 - ∑ i, (p i).1 * (dir i).1| ≤ e := fun p hp => by
    refine (hraw p hp).trans ?_
    have h1 : 0 ≤ ((D : ℝ) + 2) * F.unit * (R * N) := by positivity
    have h2 := mul_le_mul_of_nonneg_left htω (show 0 ≤ (D : ℝ) + 2 by positivity)
    have : e = 2 * (((D : ℝ) + 2) * F.unit * (R * N)) + 2 * ((D + 2) * ω) := by rw [he]; ring
    linarith
  have hlim : ∀ p ∈ pts, (HasLimits.lowest : Fl F) ≤ dot p dir ∧ dot p dir ≤ HasLimits.maxVal := fun p hp => by
    have h1 := hraw p hp
    have h2 := (abs_dp_le (fun i => (p i).1) (fun i => (dir i).1)).trans (hprod p hp)
    have h3 : ((D : ℝ) + 2) * F.unit * (R * N) ≤ 1 / 64 * (R * N) := mul_le_mul_of_nonneg_right f2 hRN
    obtain ⟨h4, h5⟩ := abs_le.1 h1
    obtain ⟨h6, h7⟩ := abs_le.1 h2
    rw [Fl.le_iff, Fl.le_iff]
    constructor <;> linarith [hmax.1, hmax.2]
  obtain ⟨lo, hi, hlo, hhi⟩ := extremes_exist (fun i => (dir i).1) (pts.map fun p i => (p i).1) (by simpa using hne)
  have hset : {x | ∃ p ∈ pts.map (fun (p : Vec (Fl F) D) i => (p i).1), x = ∑ i, p i * (dir i).1} = {x | ∃ p ∈ pts, x = ∑ i, (p i).1 * (dir i).1} := by
    ext x
    simp only [List.mem_map, exists_exists_and_eq_and, Set.mem_ofPred_eq]
  rw [hset] at hlo hhi
  have hemp : (!pts.isEmpty) = true := by
    cases pts with
    | nil => exact absurd rfl hne
    | cons => rfl
  obtain ⟨-, h3, h4, h5⟩ := extremeLoop_spec dir ⟨HasLimits.maxVal, HasLimits.lowest⟩ pts
  refine ⟨extremeLoop dir ⟨HasLimits.maxVal, HasLimits.lowest⟩ pts, lo, hi, ?_, hlo, hhi, ?_, ?_⟩
  · cases dbg with
    | false => rfl
    | true =>
      simp only [extremePointsAlongDirection, hemp, hdir rfl]
      rfl
  · have hatt : ∃ p ∈ pts, (extremeLoop dir ⟨HasLimits.maxVal, HasLimits.lowest⟩ pts).min = dot p dir := by
      rcases h4 with h | h
      · exact ⟨q0, hq0, le_antisymm (h3 q0 hq0).1 (by rw [h]; exact (hlim q0 hq0).2)⟩
      · exact h
    obtain ⟨p, hp, hpe⟩ := hatt
    obtain ⟨q, hq, hqe⟩ := hlo.1
    have l1 := hlo.2 ⟨p, hp, rfl⟩
    have l2 := (Fl.le_iff _ _).1 (h3 q hq).1
    have l3 := (abs_le.1 (herr p hp)).1
    have l4 := (abs_le.1 (herr q hq)).2
    rw [← hqe] at l4
    show _ ≤ e
    rw [abs_le]
    rw [hpe] at l2 ⊢
    constructor <;> linarith
  · have hatt : ∃ p ∈ pts, (extremeLoop dir ⟨HasLimits.maxVal, HasLimits.lowest⟩ pts).max = dot p dir := by
      rcases h5 with h | h
      · exact ⟨q0, hq0, le_antisymm (by rw [h]; exact (hlim q0 hq0).1) (h3 q0 hq0).2⟩
      · exact h
    obtain ⟨p, hp, hpe⟩ := hatt
    obtain ⟨q, hq, hqe⟩ := hhi.1
    have l1 := hhi.2 ⟨p, hp, rfl⟩
    have l2 := (Fl.le_iff _ _).1 (h3 q hq).2
    have l3 := (abs_le.1 (herr p hp)).2
    have l4 := (abs_le.1 (herr q hq)).1
    rw [← hqe] at l4
    show _ ≤ e
    rw [abs_le]
    rw [hpe] at l2 ⊢
    constructor <;> linarith

/-! ### Cones -/

/-- C148: the slant height has a relative error of at most ten units of roundoff, whatever the radius is. -/
theorem C148_slant (c : Cone (Fl F)) (hp : 9 ≤ F.prec) {H : ℝ} (hH : H = Spec.dist (fun i => (c.segment.target i).1) (fun i => (c.segment.source i).1))
    (hH0 : 0 < H) (hsmall : ∀ k, F.emin = some k → k ≤ -2 * (F.prec : ℤ) ∧ (2 : ℝ) ^ ((k + 1) / 2) ≤ (2 : ℝ)⁻¹ ^ F.prec * H) :
    |c.slantHeight.1 - Real.sqrt (c.radius.1 ^ 2 + H ^ 2)| ≤ 10 * (2 : ℝ)⁻¹ ^ F.prec * Real.sqrt (c.radius.1 ^ 2 + H ^ 2) := by
  have hu0 := F.unit_pos
  have hD : 64 * (3 + 2) ≤ 2 ^ F.prec := le_trans (by norm_num) (Nat.pow_le_pow_right (by norm_num) hp)
  have hu : F.unit ≤ 1 / 512 := by
    unfold FloatFormat.unit
    calc (2 : ℝ)⁻¹ ^ F.prec ≤ 2⁻¹ ^ 9 := pow_le_pow_of_le_one (by norm_num) (by norm_num) hp
      _ = 1 / 512 := by norm_num
  obtain ⟨t0, t1, t2⟩ := tiny_of_length hH0 hsmall
  have hh : |c.height.1 - H| ≤ 7 * F.unit * H := by
    have := C95_length c.segment hD (by rw [← hH]; exact hH0) (by rw [← hH]; exact hsmall)
    rw [← hH] at this
    refine this.trans (le_of_eq ?_)
    show ((3 : ℕ) + 4 : ℝ) * F.unit * H = _
    push_cast; ring
  set ρ := c.radius.1 with hρ
  set X := ρ ^ 2 + H ^ 2 with hX
  set S := Real.sqrt X with hS
  have hX0 : 0 < X := by positivity
  have hS0 : 0 < S := Real.sqrt_pos.2 hX0
  have hS2 : S ^ 2 = X := Real.sq_sqrt hX0.le
  have hHX : H ^ 2 ≤ X := by rw [hX]; linarith [sq_nonneg ρ]
  have hHS : H ≤ S := by rw [hS]; exact Real.le_sqrt_of_sq_le hHX
  have uu : F.unit * F.unit ≤ 1 / 512 * F.unit := mul_le_mul_of_nonneg_right hu hu0.le
  -- squares
  have e1 := mul_err hh hh (show |H| ≤ H from (abs_of_pos hH0).le) (show |H| ≤ H from (abs_of_pos hH0).le)
  have e1' : |(c.height * c.height).1 - H * H| ≤ 153 / 10 * F.unit * H ^ 2 := by
    refine e1.trans ?_
    have k1 : F.unit * F.unit * H ^ 2 ≤ 1 / 512 * F.unit * H ^ 2 := mul_le_mul_of_nonneg_right uu (sq_nonneg H)
    have k2 : F.unit * (F.unit * F.unit * H ^ 2) ≤ 1 / 512 * (1 / 512 * F.unit * H ^ 2) := mul_le_mul hu k1 (by positivity) (by norm_num)
    have e : 7 * F.unit * H * H + H * (7 * F.unit * H) + 7 * F.unit * H * (7 * F.unit * H) + F.unit * (H * H + (7 * F.unit * H * H + H * (7 * F.unit * H) + 7 * F.unit * H * (7 * F.unit * H))) + F.tiny
        = 15 * (F.unit * H ^ 2) + 63 * (F.unit * F.unit * H ^ 2) + 49 * (F.unit * (F.unit * F.unit * H ^ 2)) + F.tiny := by ring
    rw [e]
    have k3 : 0 ≤ F.unit * H ^ 2 := by positivity
    linarith
  have e2 : |(c.radius * c.radius).1 - ρ ^ 2| ≤ F.unit * ρ ^ 2 + F.unit * F.unit * H ^ 2 := by
    rw [Fl.val_mul]
    have := F.err (ρ * ρ)
    rw [abs_of_nonneg (mul_self_nonneg ρ)] at this
    rw [show ρ ^ 2 = ρ * ρ by ring]
    refine this.trans ?_
    linarith
  have e3 := Fl.add_rel (c.radius * c.radius) (c.height * c.height)
  set Y := (c.radius * c.radius + c.height * c.height).1 with hY
  have hsum : |(c.radius * c.radius).1 + (c.height * c.height).1 - X| ≤ 154 / 10 * F.unit * X := by
    have k1 : F.unit * F.unit * H ^ 2 ≤ 1 / 512 * F.unit * H ^ 2 := mul_le_mul_of_nonneg_right uu (sq_nonneg H)
    have : (c.radius * c.radius).1 + (c.height * c.height).1 - X = ((c.radius * c.radius).1 - ρ ^ 2) + ((c.height * c.height).1 - H * H) := by rw [hX]; ring
    rw [this]
    refine (abs_add_le _ _).trans ?_
    have k3 : 0 ≤ F.unit * H ^ 2 := by positivity
    have k4 : 0 ≤ F.unit * ρ ^ 2 := by positivity
    have : 154 / 10 * F.unit * X = 154 / 10 * (F.unit * ρ ^ 2) + 154 / 10 * (F.unit * H ^ 2) := by rw [hX]; ring
    linarith
  have hYX : |Y - X| ≤ 165 / 10 * F.unit * X := by
    have k1 := abs_sub_abs_le_abs_sub ((c.radius * c.radius).1 + (c.height * c.height).1) X
    rw [abs_of_pos hX0] at k1
    have k2 : |(c.radius * c.radius).1 + (c.height * c.height).1| ≤ X + 154 / 10 * F.unit * X := by linarith
    have k3 := mul_le_mul_of_nonneg_left k2 hu0.le
    have k4 : F.unit * F.unit * X ≤ 1 / 512 * F.unit * X := mul_le_mul_of_nonneg_right uu hX0.le
    have k5 := abs_sub_le Y ((c.radius * c.radius).1 + (c.height * c.height).1) X
    have k6 : F.unit * (X + 154 / 10 * F.unit * X) = F.unit * X + 154 / 10 * (F.unit * F.unit * X) := by ring
    have k7 : 0 ≤ F.unit * X := by positivity
    linarith
  have huX : F.unit * X ≤ 1 / 512 * X := mul_le_mul_of_nonneg_right hu hX0.le
  have hYl : 81 / 100 * X ≤ Y := by
    have := (abs_le.1 hYX).1
    linarith
  have hr : 9 / 10 * S ≤ Real.sqrt Y := by
    refine Real.le_sqrt_of_sq_le ?_
    rw [mul_pow, hS2]
    linarith
  have hY0 : 0 ≤ Y := by linarith
  have hdiff : |Real.sqrt Y - S| ≤ 87 / 10 * F.unit * S := by
    have k1 : |Real.sqrt Y - S| * (Real.sqrt Y + S) = |Y - X| := by
      have hp0 : 0 < Real.sqrt Y + S := by linarith
      have k0 : |Real.sqrt Y - S| * (Real.sqrt Y + S) = |(Real.sqrt Y - S) * (Real.sqrt Y + S)| := by rw [abs_mul, abs_of_pos hp0]
      rw [k0]
      congr 1
      have := Real.sq_sqrt hY0
      rw [← hS2]
      linear_combination this
    have k2 : |Real.sqrt Y - S| * (19 / 10 * S) ≤ |Real.sqrt Y - S| * (Real.sqrt Y + S) := mul_le_mul_of_nonneg_left (by linarith) (abs_nonneg _)
    rw [k1] at k2
    have k3 : |Real.sqrt Y - S| * (19 / 10 * S) ≤ (87 / 10 * F.unit * S) * (19 / 10 * S) := by
      refine (k2.trans hYX).trans ?_
      rw [← hS2]
      have : 0 ≤ F.unit * S ^ 2 := by positivity
      linarith
    exact le_of_mul_le_mul_right k3 (by linarith)
  show |F.rnd (Real.sqrt Y) - S| ≤ 10 * F.unit * S
  refine (F.err_of hdiff (show |S| ≤ S from (abs_of_pos hS0).le)).trans ?_
  have k1 : F.unit * F.unit * S ≤ 1 / 512 * F.unit * S := mul_le_mul_of_nonneg_right uu hS0.le
  have k2 : F.unit * F.unit * H ≤ F.unit * F.unit * S := mul_le_mul_of_nonneg_left hHS (by positivity)
  have k3 : 0 ≤ F.unit * S := by positivity
  have : F.unit * (S + 87 / 10 * F.unit * S) = F.unit * S + 87 / 10 * (F.unit * F.unit * S) := by ring
  linarith

theorem arctan_lip (x y : ℝ) : |Real.arctan x - Real.arctan y| ≤ |x - y| := by
  have := Convex.norm_image_sub_le_of_norm_deriv_le (f := Real.arctan) (s := Set.univ) (x := y) (y := x) (C := 1)
    (fun z _ => Real.differentiableAt_arctan z) (fun z _ => by
      rw [Real.deriv_arctan, Real.norm_eq_abs, abs_of_pos (by positivity), div_le_one (by positivity)]
      nlinarith [sq_nonneg z]) convex_univ (Set.mem_univ _) (Set.mem_univ _)
  simpa [Real.norm_eq_abs] using this

/-- Relative errors of a positive number move the inverse tangent little, however large the number is. -/
theorem arctan_rel {x y ε : ℝ} (hy : 0 < y) (hε : ε ≤ 1 / 32) (h : |x - y| ≤ ε * max y 1) : |Real.arctan x - Real.arctan y| ≤ 17 / 16 * ε := by
  have hε0 : 0 ≤ ε := by
    by_contra hc
    have : ε * max y 1 < 0 := mul_neg_of_neg_of_pos (not_le.1 hc) (by positivity)
    linarith [abs_nonneg (x - y)]
  rcases le_total y 1 with h1 | h1
  · rw [max_eq_right h1] at h
    exact (arctan_lip x y).trans (by linarith)
  · rw [max_eq_left h1] at h
    have h2 := (abs_le.1 h).1
    have h3 : ε * y ≤ 1 / 32 * y := mul_le_mul_of_nonneg_right hε hy.le
    have hx : 31 / 32 * y ≤ x := by linarith
    have hx0 : 0 < x := by linarith
    have e1 := Real.arctan_inv_of_pos hx0
    have e2 := Real.arctan_inv_of_pos hy
    have e3 : Real.arctan x - Real.arctan y = Real.arctan y⁻¹ - Real.arctan x⁻¹ := by linarith
    rw [e3]
    refine (arctan_lip _ _).trans ?_
    have e4 : y⁻¹ - x⁻¹ = (x - y) / (x * y) := by field_simp
    rw [e4, abs_div, abs_of_pos (mul_pos hx0 hy), div_le_iff₀ (mul_pos hx0 hy)]
    refine h.trans ?_
    have h5 : 17 / 16 * ε * (31 / 32 * y * y) ≤ 17 / 16 * ε * (x * y) := mul_le_mul_of_nonneg_left (mul_le_mul_of_nonneg_right hx hy.le) (by positivity)
    have h6 : ε * (y * 1) ≤ ε * (y * y) := mul_le_mul_of_nonneg_left (mul_le_mul_of_nonneg_left h1 hy.le) hε0
    have h7 : 0 ≤ ε * (y * y) := by positivity
    linarith

/-- C148: the opening angle is accurate to 25 units of roundoff (in radians) for needles and for flat cones alike, if the library's inverse
tangent is accurate to two units of roundoff. -/
theorem C148_angle [HasTrig (Fl F)] (hatan : ∀ x : Fl F, |(HasTrig.atan x).1 - Real.arctan x.1| ≤ 2 * (2 : ℝ)⁻¹ ^ F.prec)
    (c : Cone (Fl F)) (hr : 0 < c.radius.1) (hp : 9 ≤ F.prec)
    {H : ℝ} (hH : H = Spec.dist (fun i => (c.segment.target i).1) (fun i => (c.segment.source i).1))
    (hH0 : 0 < H) (hsmall : ∀ k, F.emin = some k → k ≤ -2 * (F.prec : ℤ) ∧ (2 : ℝ) ^ ((k + 1) / 2) ≤ (2 : ℝ)⁻¹ ^ F.prec * H) :
    |c.openingAngle.1 - 2 * Real.arctan (c.radius.1 / H)| ≤ 25 * (2 : ℝ)⁻¹ ^ F.prec := by
  have hu0 := F.unit_pos
  have hD : 64 * (3 + 2) ≤ 2 ^ F.prec := le_trans (by norm_num) (Nat.pow_le_pow_right (by norm_num) hp)
  have hu : F.unit ≤ 1 / 512 := by
    unfold FloatFormat.unit
    calc (2 : ℝ)⁻¹ ^ F.prec ≤ 2⁻¹ ^ 9 := pow_le_pow_of_le_one (by norm_num) (by norm_num) hp
      _ = 1 / 512 := by norm_num
  obtain ⟨t0, -, -⟩ := tiny_of_length hH0 hsmall
  have hh : |c.height.1 - H| ≤ 7 * F.unit * H := by
    have := C95_length c.segment hD (by rw [← hH]; exact hH0) (by rw [← hH]; exact hsmall)
    rw [← hH] at this
    refine this.trans (le_of_eq ?_)
    show ((3 : ℕ) + 4 : ℝ) * F.unit * H = _
    push_cast; ring
  set ρ := c.radius.1 with hρ
  set y := ρ / H with hy
  have hy0 : 0 < y := div_pos hr hH0
  have uu : F.unit * F.unit ≤ 1 / 512 * F.unit := mul_le_mul_of_nonneg_right hu hu0.le
  have huH : F.unit * H ≤ 1 / 512 * H := mul_le_mul_of_nonneg_right hu hH0.le
  have hh1 : 505 / 512 * H ≤ c.height.1 := by
    have := (abs_le.1 hh).1
    linarith
  have hh0 : 0 < c.height.1 := by linarith
  have q1 : |ρ / c.height.1 - y| ≤ 71 / 10 * F.unit * y := by
    have e : ρ / c.height.1 - y = y * (-(c.height.1 - H)) / c.height.1 := by rw [hy]; field_simp; ring
    rw [e, abs_div, abs_of_pos hh0, div_le_iff₀ hh0, abs_mul, abs_neg, abs_of_pos hy0]
    have k1 := mul_le_mul_of_nonneg_left hh hy0.le
    have k2 := mul_le_mul_of_nonneg_left hh1 (show 0 ≤ 71 / 10 * F.unit * y by positivity)
    have k3 : 0 ≤ F.unit * y * H := by positivity
    have e2 : 71 / 10 * F.unit * y * (505 / 512 * H) = 71 / 10 * (505 / 512) * (F.unit * y * H) := by ring
    have e3 : y * (7 * F.unit * H) = 7 * (F.unit * y * H) := by ring
    linarith
  have q2 := F.err_of q1 (show |y| ≤ y from (abs_of_pos hy0).le)
  set x := (c.radius / c.height).1 with hx
  have q3 : |x - y| ≤ 41 / 5 * F.unit * max y 1 := by
    refine q2.trans ?_
    have m1 : y ≤ max y 1 := le_max_left _ _
    have m2 : (1 : ℝ) ≤ max y 1 := le_max_right _ _
    have m0 : 0 ≤ max y 1 := by linarith
    have k1 : F.unit * F.unit * y ≤ 1 / 512 * F.unit * y := mul_le_mul_of_nonneg_right uu hy0.le
    have k2 := mul_le_mul_of_nonneg_left m1 hu0.le
    have k3 := mul_le_mul_of_nonneg_left m2 hu0.le
    have : F.unit * (y + 71 / 10 * F.unit * y) = F.unit * y + 71 / 10 * (F.unit * F.unit * y) := by ring
    linarith
  have q4 := arctan_rel hy0 (show 41 / 5 * F.unit ≤ 1 / 32 by linarith) q3
  have q5 := hatan (c.radius / c.height)
  rw [← hx] at q5
  change _ ≤ 2 * F.unit at q5
  set a := (HasTrig.atan (c.radius / c.height) : Fl F).1 with ha
  have q6 : |a - Real.arctan y| ≤ 43 / 4 * F.unit := by
    have := abs_sub_le a (Real.arctan x) (Real.arctan y)
    linarith
  have hpi : |2 * Real.arctan y| ≤ 315 / 100 := by
    rw [abs_mul, abs_two]
    have h1 := Real.arctan_lt_pi_div_two y
    have h2 := Real.neg_pi_div_two_lt_arctan y
    have h3 := Real.pi_lt_d2
    have : |Real.arctan y| ≤ 315 / 200 := by rw [abs_le]; constructor <;> linarith
    linarith
  have q7 : |a * 2 - 2 * Real.arctan y| ≤ 43 / 2 * F.unit := by
    rw [show a * 2 - 2 * Real.arctan y = 2 * (a - Real.arctan y) by ring, abs_mul, abs_two]
    linarith
  show |F.rnd (a * (2 : Fl F).1) - 2 * Real.arctan y| ≤ 25 * F.unit
  rw [F.two_exact]
  refine (F.err_of q7 hpi).trans ?_
  have : F.unit * (315 / 100 + 43 / 2 * F.unit) = 315 / 100 * F.unit + 43 / 2 * (F.unit * F.unit) := by ring
  linarith

/-! ### Boxes -/

/-- C148: a box from a corner and an edge length: it starts at the corner, is never inverted, and its other corner has a relative error
of at most one unit of roundoff. -/
theorem C148_extend (dbg : Bool) (m : Vec (Fl F) D) (x : Fl F) (hx : 0 ≤ x) :
    ∃ b : AABB (Fl F) D, AABB.ofExtend dbg m x = .ok b ∧ b.min = m ∧ ∀ i, m i ≤ b.max i ∧
      |(b.max i).1 - ((m i).1 + x.1)| ≤ (2 : ℝ)⁻¹ ^ F.prec * |(m i).1 + x.1| := by
  refine ⟨⟨m, fun i => m i + x⟩, ?_, rfl, fun i => ⟨?_, Fl.add_rel _ _⟩⟩
  · unfold AABB.ofExtend geoAssert
    simp only [hx, decide_true, Bool.not_true, Bool.and_false]
    rfl
  · rw [Fl.le_iff]
    refine F.rounds.le_of (m i).2 ?_
    have := (Fl.le_iff _ _).1 hx
    rw [Fl.val_zero] at this
    linarith

theorem absorb (F : FloatFormat) : F.rnd (2 ^ (F.prec + 1) + 1) = 2 ^ (F.prec + 1) := by
  have hr : Representable F.prec F.emin ((2 : ℝ) ^ (F.prec + 1)) := Ieee.pow_mem F _
  obtain ⟨n, e, hn, he, hx⟩ := F.rounds.mem ((2 : ℝ) ^ (F.prec + 1) + 1)
  have h1 := F.rounds.nearest ((2 : ℝ) ^ (F.prec + 1) + 1) _ hr
  rw [show (2 : ℝ) ^ (F.prec + 1) - (2 ^ (F.prec + 1) + 1) = -1 by ring, abs_neg, abs_one] at h1
  obtain ⟨h2, h3⟩ := abs_le.1 h1
  set r := F.rnd ((2 : ℝ) ^ (F.prec + 1) + 1) with hrd
  rcases le_or_gt e 1 with h | h
  · -- too short
    refine le_antisymm ?_ (by linarith)
    rw [hx]
    have k1 : (n : ℝ) ≤ 2 ^ F.prec := by
      have := (abs_lt.1 hn).2
      exact_mod_cast this.le
    calc (n : ℝ) * 2 ^ e ≤ 2 ^ F.prec * 2 ^ e := mul_le_mul_of_nonneg_right k1 (by positivity)
      _ ≤ 2 ^ F.prec * 2 ^ (1 : ℤ) := mul_le_mul_of_nonneg_left (zpow_le_zpow_right₀ (by norm_num) h) (by positivity)
      _ = 2 ^ (F.prec + 1) := by rw [zpow_one, pow_succ]
  · -- a multiple of four
    obtain ⟨q, rfl⟩ : ∃ q : ℕ, e = q + 2 := ⟨(e - 2).toNat, by omega⟩
    have hp := F.one_lt_prec
    obtain ⟨s, hs⟩ : ∃ s, F.prec + 1 = s + 2 := ⟨F.prec - 1, by omega⟩
    have e1 : r = ((4 * (n * 2 ^ q) : ℤ) : ℝ) := by
      rw [hx, zpow_add₀ (by norm_num), zpow_natCast]; push_cast; norm_num; ring
    have e2 : (2 : ℝ) ^ (F.prec + 1) = ((4 * 2 ^ s : ℤ) : ℝ) := by rw [hs, pow_add]; push_cast; norm_num; ring
    rw [e1, e2] at h2 h3
    rw [e1, e2]
    have h4 : (4 * (n * 2 ^ q) : ℤ) ≤ 4 * 2 ^ s + 2 := by
      have : ((4 * (n * 2 ^ q) : ℤ) : ℝ) ≤ ((4 * 2 ^ s + 2 : ℤ) : ℝ) := by push_cast at h3 ⊢; linarith
      exact_mod_cast this
    have h5 : (4 * 2 ^ s : ℤ) ≤ 4 * (n * 2 ^ q) := by
      have : ((4 * 2 ^ s : ℤ) : ℝ) ≤ ((4 * (n * 2 ^ q) : ℤ) : ℝ) := by push_cast at h2 ⊢; linarith
      exact_mod_cast this
    have : (4 * (n * 2 ^ q) : ℤ) = 4 * 2 ^ s := by omega
    rw [this]

/-- C148: the edge can vanish: in every format there is a corner for which the box with edge one is a single point, accepted in debug
builds. -/
theorem C148_extend_counterexample (F : FloatFormat) (D : ℕ) (dbg : Bool) :
    ∃ (m : Vec (Fl F) D) (b : AABB (Fl F) D), AABB.ofExtend dbg m 1 = .ok b ∧ b.max = b.min := by
  let c : Fl F := ⟨2 ^ (F.prec + 1), Ieee.pow_mem F _⟩
  refine ⟨fun _ => c, ⟨fun _ => c, fun _ => c + 1⟩, ?_, ?_⟩
  · unfold AABB.ofExtend geoAssert
    have : (0 : Fl F) ≤ 1 := by rw [Fl.le_iff, Fl.val_zero]; exact zero_le_one
    simp only [this, decide_true, Bool.not_true, Bool.and_false]
    rfl
  · funext i
    exact Fl.ext (absorb F)
end

namespace Ieee
variable {F : IeeeFormat} {D : ℕ}

/-- C148: the centre of a box with corners up to `2 ^ k`, `k` two below the largest exponent, is finite and lies in the box. -/
theorem C148_center_partial (k : ℕ) (hk : k + 1 < F.emax) (b : AABB (Ieee F) D) (i : Fin D) {l h : ℝ} (hl : (b.min i).val? = some l) (hh : (b.max i).val? = some h)
    (hlk : |l| ≤ 2 ^ k) (hhk : |h| ≤ 2 ^ k) (hlh : l ≤ h) : ∃ x, (b.center i).val? = some x ∧ l ≤ x ∧ x ≤ h := by
  have n1 : Near k (b.min i) (toFl (b.min i)) := AtMost.near ⟨l, hl, hlk⟩
  have n2 : Near k (b.max i) (toFl (b.max i)) := AtMost.near ⟨h, hh, hhk⟩
  set lo := toFl (b.min i)
  set hi := toFl (b.max i)
  have e1 : lo.1 = l := Option.some.inj (n1.val.symm.trans hl)
  have e2 : hi.1 = h := Option.some.inj (n2.val.symm.trans hh)
  have n3 := n2.sub n1 hk
  have n4 : Near (k + 1 + 0) ((b.max i - b.min i) / 2) ((hi - lo) / 2) := n3.div (j := 0) near_two (by
    rw [F.two_exact, abs_two]; norm_num) (by omega)
  have hle : lo ≤ hi := by rw [Fl.le_iff, e1, e2]; exact hlh
  obtain ⟨c1, c2⟩ := C102_center (⟨fun _ => lo, fun _ => hi⟩ : AABB (Fl F.toFloatFormat) D) (fun _ => hle) i
  have hc : (⟨fun _ => lo, fun _ => hi⟩ : AABB (Fl F.toFloatFormat) D).center i = lo + (hi - lo) / 2 := rfl
  rw [hc, Fl.le_iff] at c1 c2
  dsimp only at c1 c2
  rw [e1] at c1
  rw [e2] at c2
  have hsz : |(lo + (hi - lo) / 2).1| ≤ 2 ^ k := by
    rw [abs_le]
    have := (abs_le.1 hlk).1
    have := (abs_le.1 hhk).2
    constructor <;> linarith
  obtain ⟨s, hs⟩ := add_def n1.val n4.val
  have n5 := ofReal_near' (F := F) (s := s) (k := k) (r := lo.1 + ((hi - lo) / 2).1) hsz (by omega)
  refine ⟨(lo + (hi - lo) / 2).1, ?_, c1, c2⟩
  show (b.min i + (b.max i - b.min i) / 2).val? = _
  rw [hs]
  exact n5.val

/-- C148: in every format there is a box with finite corners, not inverted, whose centre has only infinite coordinates. -/
theorem C148_center_counterexample (F : IeeeFormat) (D : ℕ) :
    ∃ b : AABB (Ieee F) D, ∀ i, (b.min i).val? = some (-2 ^ (F.emax - 1)) ∧ (b.max i).val? = some (2 ^ (F.emax - 1)) ∧ b.center i = inf false := by
  have hF := F.one_lt_emax
  have hn : F.emax - 1 < F.emax := by omega
  have hv := pow2_val (F := F) (F.emax - 1) hn
  have hneg := neg_val hv
  refine ⟨⟨fun _ => -pow2 F (F.emax - 1) hn, fun _ => pow2 F (F.emax - 1) hn⟩, fun i => ⟨hneg, hv, ?_⟩⟩
  show -pow2 F (F.emax - 1) hn + (pow2 F (F.emax - 1) hn - -pow2 F (F.emax - 1) hn) / 2 = inf false
  obtain ⟨s, hs⟩ := add_def hv (neg_val hneg)
  have e : (2 : ℝ) ^ (F.emax - 1) + - -2 ^ (F.emax - 1) = 2 ^ F.emax := by
    obtain ⟨n, hn⟩ : ∃ n, F.emax = n + 1 := ⟨F.emax - 1, by omega⟩
    rw [hn, Nat.add_sub_cancel, pow_succ]; ring
  have hd : pow2 F (F.emax - 1) hn - -pow2 F (F.emax - 1) hn = inf false := by
    show pow2 F (F.emax - 1) hn + - -pow2 F (F.emax - 1) hn = inf false
    rw [hs, e]
    have hr : F.rnd ((2 : ℝ) ^ F.emax) = 2 ^ F.emax := F.rounds.exact (pow_mem _ _)
    rcases ofReal_cases (F := F) s ((2 : ℝ) ^ F.emax) with ⟨q, h2, h3⟩ | ⟨h1, -, -⟩
    · exfalso
      generalize ofReal (F := F) s ((2 : ℝ) ^ F.emax) = z at h2
      have hp : (0 : ℝ) < 2 ^ F.emax := by positivity
      cases z <;> simp only [val?, Option.some.injEq, reduceCtorEq] at h2
      · rw [h3, hr] at h2; exact hp.ne h2
      · next x hx => rw [h2, h3, hr, abs_of_pos hp] at hx; exact lt_irrefl _ hx
    · rw [h1, hr]
      congr 1
      rw [decide_eq_false_iff_not]
      exact not_lt.2 (by positivity)
  rw [hd]
  have h2 : (inf false : Ieee F) / 2 = inf false := by
    have hv2 := (near_two (F := F)).val
    rw [F.two_exact] at hv2
    generalize (2 : Ieee F) = z at hv2
    cases z <;> simp only [val?, Option.some.injEq, reduceCtorEq] at hv2
    · norm_num at hv2
    · next x hx =>
      show inf (false ^^ signBit (fin x hx)) = inf false
      congr 1
      simp only [signBit, hv2, Bool.false_xor, decide_eq_false_iff_not]
      norm_num
  rw [h2]
  generalize hz : -pow2 F (F.emax - 1) hn = z at hneg
  cases z <;> simp only [val?, reduceCtorEq] at hneg <;> rfl
end Ieee

section Examples
attribute [local instance] tol64 roundedTrig
noncomputable local instance limits64 : HasLimits (Fl binary64) := ⟨fl64 (10 ^ 9), fl64 (-10 ^ 9)⟩

/-- Projections on a direction of length seven. -/
example : ∃ m, extremePointsAlongDirection false (p64 2 3 6) [p64 1 2 3, p64 4 5 6] = .ok m ∧ |m.max.1 - 59| ≤ 1 / 10 ^ 10 := by
  obtain ⟨m, lo, hi, h1, -, h2, -, h3⟩ := C148_extreme false (p64 2 3 6) [p64 1 2 3, p64 4 5 6] (by simp) (by simp) (by show 64 * 5 ≤ 2 ^ 53; norm_num)
    emin64 (R := 9) (N := 7) (ω := 1 / 10 ^ 12) (by
      intro p hp
      simp only [List.mem_cons, List.not_mem_nil, or_false] at hp
      rcases hp with rfl | rfl
      · rw [p64_vals]; exact Real.sqrt_le_iff.2 ⟨by norm_num, by simp [Fin.sum_univ_three]; norm_num⟩
      · rw [p64_vals]; exact Real.sqrt_le_iff.2 ⟨by norm_num, by simp [Fin.sum_univ_three]; norm_num⟩)
    (by rw [p64_vals]; exact (norm3 _ _ _ 7 (by norm_num) (by norm_num)).le) (by norm_num) (by
      intro k hk
      cases hk
      refine (zpow_le_zpow_right₀ (by norm_num) (show (-1074 : ℤ) ≤ -53 by norm_num)).trans (by norm_num))
    (by
      show 2 * (9 * 7) + 1 ≤ (((10 ^ 9 : ℤ)) : ℝ) ∧ (((-10 ^ 9 : ℤ)) : ℝ) ≤ -(2 * (9 * 7) + 1)
      constructor <;> norm_num)
  refine ⟨m, h1, ?_⟩
  have e1 : ∑ i, ((p64 1 2 3) i).1 * ((p64 2 3 6) i).1 = 26 := by
    rw [Fin.sum_univ_three]
    show ((1 : ℤ) : ℝ) * ((2 : ℤ) : ℝ) + ((2 : ℤ) : ℝ) * ((3 : ℤ) : ℝ) + ((3 : ℤ) : ℝ) * ((6 : ℤ) : ℝ) = 26
    norm_num
  have e2 : ∑ i, ((p64 4 5 6) i).1 * ((p64 2 3 6) i).1 = 59 := by
    rw [Fin.sum_univ_three]
    show ((4 : ℤ) : ℝ) * ((2 : ℤ) : ℝ) + ((5 : ℤ) : ℝ) * ((3 : ℤ) : ℝ) + ((6 : ℤ) : ℝ) * ((6 : ℤ) : ℝ) = 59
    norm_num
  have hhi : hi = 59 := by
    refine le_antisymm ?_ (h2.2 ⟨p64 4 5 6, by simp, e2.symm⟩)
    obtain ⟨p, hp, h⟩ := h2.1
    simp only [List.mem_cons, List.not_mem_nil, or_false] at hp
    rcases hp with rfl | rfl
    · rw [h, e1]; norm_num
    · rw [h, e2]
  rw [hhi] at h3
  refine h3.trans ?_
  show 2 * (((3 : ℕ) : ℝ) + 2) * ((2 : ℝ)⁻¹ ^ 53 * (9 * 7) + 1 / 10 ^ 12) ≤ _
  norm_num

theorem axis4 : (4 : ℝ) = Spec.dist (fun i => ((⟨p64 0 0 0, p64 0 0 4⟩ : Segment (Fl binary64) 3).target i).1) (fun i => ((⟨p64 0 0 0, p64 0 0 4⟩ : Segment (Fl binary64) 3).source i).1) := by
  show _ = Spec.dist (fun i => ((p64 0 0 4) i).1) (fun i => ((p64 0 0 0) i).1)
  rw [p64_vals, p64_vals]
  exact (dist3 _ _ _ _ _ _ 4 (by norm_num) (by norm_num)).symm

/-- A cone with radius three and height four. -/
example : |(⟨⟨p64 0 0 0, p64 0 0 4⟩, fl64 3⟩ : Cone (Fl binary64)).slantHeight.1 - 5| ≤ 1 / 10 ^ 12 := by
  have h := C148_slant (⟨⟨p64 0 0 0, p64 0 0 4⟩, fl64 3⟩ : Cone (Fl binary64)) (by show 9 ≤ 53; norm_num) axis4 (by norm_num) (small64' (by norm_num))
  have e : Real.sqrt ((⟨⟨p64 0 0 0, p64 0 0 4⟩, fl64 3⟩ : Cone (Fl binary64)).radius.1 ^ 2 + 4 ^ 2) = 5 := by
    show Real.sqrt (((3 : ℤ) : ℝ) ^ 2 + 4 ^ 2) = 5
    rw [show (((3 : ℤ) : ℝ) ^ 2 + 4 ^ 2) = 5 ^ 2 by norm_num]
    exact Real.sqrt_sq (by norm_num)
  rw [e] at h
  refine h.trans ?_
  show 10 * (2 : ℝ)⁻¹ ^ 53 * 5 ≤ _
  norm_num

/-- A cone with radius and height four opens by a right angle. -/
example : |(⟨⟨p64 0 0 0, p64 0 0 4⟩, fl64 4⟩ : Cone (Fl binary64)).openingAngle.1 - Real.pi / 2| ≤ 1 / 10 ^ 12 := by
  have h := C148_angle (F := binary64) (fun x => by
      show |binary64.rnd (Real.arctan x.1) - Real.arctan x.1| ≤ 2 * binary64.unit
      refine (binary64.err _).trans ?_
      have h1 : |Real.arctan x.1| ≤ 8 / 5 := by
        have := Real.arctan_lt_pi_div_two x.1
        have := Real.neg_pi_div_two_lt_arctan x.1
        have := Real.pi_lt_d2
        rw [abs_le]; constructor <;> linarith
      have h2 := mul_le_mul_of_nonneg_left h1 binary64.unit_pos.le
      have h3 := tiny_of_emin emin64
      have h4 : binary64.unit ≤ 1 / 1000 := by show (2 : ℝ)⁻¹ ^ 53 ≤ _; norm_num
      have h5 := mul_le_mul_of_nonneg_right h4 binary64.unit_pos.le
      have h6 := binary64.unit_pos
      linarith)
    (⟨⟨p64 0 0 0, p64 0 0 4⟩, fl64 4⟩ : Cone (Fl binary64)) (by show (0 : ℝ) < ((4 : ℤ) : ℝ); norm_num) (by show 9 ≤ 53; norm_num) axis4 (by norm_num) (small64' (by norm_num))
  have e : (⟨⟨p64 0 0 0, p64 0 0 4⟩, fl64 4⟩ : Cone (Fl binary64)).radius.1 / 4 = 1 := by
    show ((4 : ℤ) : ℝ) / 4 = 1
    norm_num
  rw [e, Real.arctan_one, show 2 * (Real.pi / 4) = Real.pi / 2 by ring] at h
  refine h.trans ?_
  show 25 * (2 : ℝ)⁻¹ ^ 53 ≤ _
  norm_num

/-- The box with corner (1, 2, 3) and edge five. -/
example : ∃ b : AABB (Fl binary64) 3, AABB.ofExtend true (p64 1 2 3) (fl64 5) = .ok b ∧ |(b.max 2).1 - 8| ≤ 1 / 10 ^ 12 := by
  obtain ⟨b, h1, -, h2⟩ := C148_extend true (p64 1 2 3) (fl64 5) (by rw [Fl.le_iff, Fl.val_zero]; show (0 : ℝ) ≤ ((5 : ℤ) : ℝ); norm_num)
  refine ⟨b, h1, ?_⟩
  have := (h2 2).2
  have e : ((p64 1 2 3) 2).1 + (fl64 5).1 = 8 := by
    show ((3 : ℤ) : ℝ) + ((5 : ℤ) : ℝ) = 8
    norm_num
  rw [e] at this
  refine this.trans ?_
  show (2 : ℝ)⁻¹ ^ 53 * |8| ≤ _
  norm_num

example : ∃ (m : Vec (Fl binary64) 3) (b : AABB (Fl binary64) 3), AABB.ofExtend true m 1 = .ok b ∧ b.max = b.min :=
  C148_extend_counterexample binary64 3 true

/-- The centre of the unit box. -/
example : ∃ x, ((⟨fun _ => 0, fun _ => 1⟩ : AABB (Ieee double64) 3).center 0).val? = some x ∧ 0 ≤ x ∧ x ≤ 1 :=
  Ieee.C148_center_partial 0 (by show 0 + 1 < 1024; norm_num) _ 0 rfl rfl (by norm_num) (by norm_num) (by norm_num)

example : ∃ b : AABB (Ieee double64) 3, ∀ i, b.center i = Ieee.inf false := by
  obtain ⟨b, h⟩ := Ieee.C148_center_counterexample double64 3
  exact ⟨b, fun i => (h i).2.2⟩
end Examples
end Verif
