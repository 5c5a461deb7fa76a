import Verif.Props.IeeeKdTree
import Verif.Model.AABB
import Verif.Proofs.Res

set_option linter.unusedSectionVars false

/-
Property C118: bounding boxes of points with NaN, infinite and huge coordinates.
-/
namespace Verif
open Spec
namespace Ieee
variable {F : IeeeFormat}

theorem ofReal_val {s : Bool} {r : ℝ} (hm : Representable F.prec F.emin r) (h : |r| < 2 ^ F.emax) : (ofReal (F := F) s r).val? = some r := by
  have hr : (Fl.round r : Fl F.toFloatFormat).1 = r := F.rounds.exact hm
  unfold ofReal
  simp only [hr]
  split_ifs with h0 hs
  · rw [h0]; rfl
  · rw [h0]; rfl
  · exact congrArg some hr

/-- The value of a finite number is representable and not too large. -/
theorem val_mem {a : Ieee F} {r : ℝ} (h : a.val? = some r) : Representable F.prec F.emin r ∧ |r| < 2 ^ F.emax := by
  cases a with
  | nan => simp [val?] at h
  | inf s => simp [val?] at h
  | negZero =>
    simp only [val?, Option.some.injEq] at h
    subst h
    exact ⟨(0 : Fl F.toFloatFormat).2, by rw [abs_zero]; positivity⟩
  | fin x hx =>
    simp only [val?, Option.some.injEq] at h
    subst h
    exact ⟨x.2, hx⟩

theorem eq_of_val {a b : Ieee F} {r : ℝ} (ha : a.val? = some r) (hb : b.val? = some r) (h0 : r ≠ 0) : a = b := by
  cases a <;> cases b <;> simp only [val?, Option.some.injEq, reduceCtorEq] at ha hb
  · exact absurd ha.symm h0
  · exact absurd ha.symm h0
  · exact absurd hb.symm h0
  · rename_i x hx y hy
    have : x = y := Fl.ext (ha.trans hb.symm)
    subst this; rfl

/-- The same value, up to the sign of zero. -/
def Like (a b : Ieee F) : Prop := (a = nan ∧ b = nan) ∨ (∃ s, a = inf s ∧ b = inf s) ∨ ∃ r, a.val? = some r ∧ b.val? = some r

theorem Like.ord {a b : Ieee F} (h : Like a b) : ord a = ord b := by
  rcases h with ⟨rfl, rfl⟩ | ⟨s, rfl, rfl⟩ | ⟨r, h1, h2⟩
  · rfl
  · rfl
  · rw [ord_of_val h1, ord_of_val h2]

theorem Like.nan_iff {a b : Ieee F} (h : Like a b) : a = nan ↔ b = nan := by
  rcases h with ⟨rfl, rfl⟩ | ⟨s, rfl, rfl⟩ | ⟨r, h1, h2⟩
  · simp
  · simp
  · constructor
    · rintro rfl; simp [val?] at h1
    · rintro rfl; simp [val?] at h2

theorem like_refl (a : Ieee F) : Like a a := by
  rcases wild_or a with (h | ⟨s, h⟩) | ⟨r, h⟩
  · exact .inl ⟨h, h⟩
  · exact .inr (.inl ⟨s, h, h⟩)
  · exact .inr (.inr ⟨r, h, h⟩)

theorem Like.add_zero {a b z : Ieee F} (h : Like a b) (hz : z.val? = some 0) : Like (a + z) b := by
  rcases h with ⟨rfl, rfl⟩ | ⟨s, rfl, rfl⟩ | ⟨r, h1, h2⟩
  · exact .inl ⟨rfl, rfl⟩
  · refine .inr (.inl ⟨s, ?_, rfl⟩)
    cases z <;> first | rfl | simp [val?] at hz
  · refine .inr (.inr ⟨r, ?_, h2⟩)
    obtain ⟨s, hs⟩ := add_def h1 hz
    rw [hs, _root_.add_zero]
    exact ofReal_val (val_mem h1).1 (val_mem h1).2

theorem Like.zero_add {a b z : Ieee F} (h : Like a b) (hz : z.val? = some 0) : Like (z + a) b := by
  rcases h with ⟨rfl, rfl⟩ | ⟨s, rfl, rfl⟩ | ⟨r, h1, h2⟩
  · exact .inl ⟨add_nan _, rfl⟩
  · refine .inr (.inl ⟨s, ?_, rfl⟩)
    cases z <;> first | rfl | simp [val?] at hz
  · refine .inr (.inr ⟨r, ?_, h2⟩)
    obtain ⟨s, hs⟩ := add_def hz h1
    rw [hs, _root_.zero_add]
    exact ofReal_val (val_mem h1).1 (val_mem h1).2

theorem mul_one_like (a : Ieee F) : Like (a * 1) a := by
  rcases wild_or a with (rfl | ⟨s, rfl⟩) | ⟨r, h⟩
  · exact .inl ⟨rfl, rfl⟩
  · refine .inr (.inl ⟨s, ?_, rfl⟩)
    show (@ite (Ieee F) _ (Classical.propDecidable _) _ _) = _
    have h1 : ¬ (1 : Ieee F).val? = some 0 := by show ¬ some (1 : ℝ) = some 0; simp
    have h2 : (1 : Ieee F).signBit = false := @decide_eq_false _ (Classical.propDecidable _) (by show ¬ (1 : ℝ) < 0; norm_num)
    rw [if_neg h1, h2]; cases s <;> rfl
  · refine .inr (.inr ⟨r, ?_, h⟩)
    obtain ⟨s, hs⟩ := mul_def h (show (1 : Ieee F).val? = some 1 from rfl)
    rw [hs, mul_one]
    exact ofReal_val (val_mem h).1 (val_mem h).2

theorem mul_zero_val {a : Ieee F} {r : ℝ} (h : a.val? = some r) : (a * 0).val? = some 0 := by
  obtain ⟨s, hs⟩ := mul_def h (show (0 : Ieee F).val? = some 0 from rfl)
  rw [hs, mul_zero]
  exact ofReal_val (0 : Fl F.toFloatFormat).2 (by rw [abs_zero]; positivity)

theorem Wild.mul_zero {a : Ieee F} (h : Wild a) : a * 0 = nan := by
  rcases h with rfl | ⟨s, rfl⟩
  · rfl
  · show (@ite (Ieee F) _ (Classical.propDecidable _) _ _) = _
    rw [if_pos (show (0 : Ieee F).val? = some 0 from rfl)]

/-- The `i`-th coordinate of the point reaches the box: it is not NaN, and the others are finite. -/
def Usable {D : Nat} (i : Fin D) (p : Vec (Ieee F) D) : Prop := p i ≠ nan ∧ ∀ j, j ≠ i → ∃ r, (p j).val? = some r

theorem dot_axis_like {p : Vec (Ieee F) 3} {i : Fin 3} (h : Usable i p) : Like (dot p (fun j => if j = i then 1 else 0)) (p i) := by
  have hz : (0 : Ieee F).val? = some 0 := rfl
  have h1 := mul_one_like (p i)
  have h0 : ∀ j, j ≠ i → (p j * 0).val? = some 0 := fun j hj => by obtain ⟨r, hr⟩ := h.2 j hj; exact mul_zero_val hr
  have zz : ∀ a b : Ieee F, a.val? = some 0 → b.val? = some 0 → (a + b).val? = some 0 := by
    intro a b ha hb
    rcases Like.add_zero (like_refl a) hb with ⟨_, hc⟩ | ⟨s, _, hc⟩ | ⟨r, h1, h2⟩
    · rw [hc] at ha; simp [val?] at ha
    · rw [hc] at ha; simp [val?] at ha
    · rw [h1, ← h2, ha]
  fin_cases i
  · have e1 := h0 1 (by decide); have e2 := h0 2 (by decide)
    simpa [dot, Fin.foldl_succ_last] using ((h1.zero_add hz).add_zero e1).add_zero e2
  · have e1 := h0 0 (by decide); have e2 := h0 2 (by decide)
    simpa [dot, Fin.foldl_succ_last] using (h1.zero_add (zz _ _ hz e1)).add_zero e2
  · have e1 := h0 0 (by decide); have e2 := h0 1 (by decide)
    simpa [dot, Fin.foldl_succ_last] using h1.zero_add (zz _ _ (zz _ _ hz e1) e2)

theorem dot_axis_nan {p : Vec (Ieee F) 3} {i : Fin 3} (h : ¬ Usable i p) : dot p (fun j => if j = i then (1 : Ieee F) else 0) = nan := by
  have : ∃ j, p j * (if j = i then 1 else 0) = nan := by
    by_cases hi : p i = nan
    · exact ⟨i, by rw [hi]; rfl⟩
    · by_contra hc
      refine h ⟨hi, fun j hj => ?_⟩
      rcases wild_or (p j) with hw | hr
      · exact absurd (by rw [if_neg hj]; exact hw.mul_zero) (not_exists.1 hc j)
      · exact hr
  obtain ⟨j, hj⟩ := this
  exact foldl_nan (fun j => p j * (if j = i then 1 else 0)) j hj

theorem extremeLoop_ieee {D : Nat} (dir : Vec (Ieee F) D) (acc : MinMax (Ieee F)) (h1 : acc.min ≠ nan) (h2 : acc.max ≠ nan) (pts : List (Vec (Ieee F) D)) :
    ((extremeLoop dir acc pts).min ≠ nan ∧ (extremeLoop dir acc pts).max ≠ nan) ∧
    (ord (extremeLoop dir acc pts).min ≤ ord acc.min ∧ ord acc.max ≤ ord (extremeLoop dir acc pts).max) ∧
    (∀ p ∈ pts, dot p dir ≠ nan → ord (extremeLoop dir acc pts).min ≤ ord (dot p dir) ∧ ord (dot p dir) ≤ ord (extremeLoop dir acc pts).max) ∧
    ((extremeLoop dir acc pts).min = acc.min ∨ ∃ p ∈ pts, dot p dir ≠ nan ∧ (extremeLoop dir acc pts).min = dot p dir) ∧
    ((extremeLoop dir acc pts).max = acc.max ∨ ∃ p ∈ pts, dot p dir ≠ nan ∧ (extremeLoop dir acc pts).max = dot p dir) := by
  induction pts generalizing acc with
  | nil => simp [extremeLoop, h1, h2]
  | cons v rest ih =>
    simp only [extremeLoop]
    set m := if dot v dir < acc.min then dot v dir else acc.min with hm
    set M := if acc.max < dot v dir then dot v dir else acc.max with hM
    have m1 : m ≠ nan ∧ ord m ≤ ord acc.min ∧ (dot v dir ≠ nan → ord m ≤ ord (dot v dir)) ∧ (m = acc.min ∨ dot v dir ≠ nan ∧ m = dot v dir) := by
      rw [hm]
      split
      · rename_i h
        have hn : dot v dir ≠ nan := fun hc => by rw [hc] at h; exact not_nan_lt _ h
        exact ⟨hn, ((lt_iff_ord h1).1 h).le, fun _ => le_refl _, .inr ⟨hn, rfl⟩⟩
      · rename_i h; exact ⟨h1, le_refl _, fun _ => (not_lt_iff_ord h1).1 h, .inl rfl⟩
    have m2 : M ≠ nan ∧ ord acc.max ≤ ord M ∧ (dot v dir ≠ nan → ord (dot v dir) ≤ ord M) ∧ (M = acc.max ∨ dot v dir ≠ nan ∧ M = dot v dir) := by
      rw [hM]
      split
      · rename_i h
        have hn : dot v dir ≠ nan := fun hc => by rw [hc] at h; exact not_lt_nan _ h
        exact ⟨hn, ((lt_iff_ord hn).1 h).le, fun _ => le_refl _, .inr ⟨hn, rfl⟩⟩
      · rename_i h; exact ⟨h2, le_refl _, fun hn => (not_lt_iff_ord hn).1 h, .inl rfl⟩
    obtain ⟨i0, ⟨i1, i2⟩, i3, i4, i5⟩ := ih ⟨m, M⟩ m1.1 m2.1
    refine ⟨i0, ⟨i1.trans m1.2.1, m2.2.1.trans i2⟩, ?_, ?_, ?_⟩
    · intro p hp hn
      rcases List.mem_cons.1 hp with rfl | hp
      · exact ⟨i1.trans (m1.2.2.1 hn), (m2.2.2.1 hn).trans i2⟩
      · exact i3 p hp hn
    · rcases i4 with h | ⟨p, hp, hn, h⟩
      · rcases m1.2.2.2 with h' | ⟨hn, h'⟩
        · exact .inl (h.trans h')
        · exact .inr ⟨v, by simp, hn, h.trans h'⟩
      · exact .inr ⟨p, List.mem_cons_of_mem _ hp, hn, h⟩
    · rcases i5 with h | ⟨p, hp, hn, h⟩
      · rcases m2.2.2.2 with h' | ⟨hn, h'⟩
        · exact .inl (h.trans h')
        · exact .inr ⟨v, by simp, hn, h.trans h'⟩
      · exact .inr ⟨p, List.mem_cons_of_mem _ hp, hn, h⟩

/-- Finite numbers lie between `lowest` and `max`. -/
theorem limits {a : Ieee F} {r : ℝ} (h : a.val? = some r) : ord (HasLimits.lowest : Ieee F) ≤ ord a ∧ ord a ≤ ord (HasLimits.maxVal : Ieee F) := by
  have key : |r| ≤ ((2 : ℝ) ^ F.prec - 1) * (2 : ℝ) ^ ((F.emax : ℤ) - F.prec) := by
    obtain ⟨⟨m, e, hm, _, he⟩, hlt⟩ := val_mem h
    have h2 : (2 : ℝ) ^ F.emax = 2 ^ F.prec * (2 : ℝ) ^ ((F.emax : ℤ) - F.prec) := by
      rw [← zpow_natCast, ← zpow_natCast, ← zpow_add₀ (by norm_num)]; congr 1; ring
    have habs : |r| = |m| * (2 : ℝ) ^ e := by rw [he, abs_mul, abs_of_pos (show (0 : ℝ) < 2 ^ e by positivity)]; push_cast; rfl
    have hm' : ((|m| : ℤ) : ℝ) ≤ 2 ^ F.prec - 1 := by
      have : |m| ≤ 2 ^ F.prec - 1 := by omega
      exact_mod_cast this
    rcases le_or_gt e ((F.emax : ℤ) - F.prec) with hle | hgt
    · rw [habs]
      refine mul_le_mul hm' (zpow_le_zpow_right₀ (by norm_num) hle) (by positivity) ?_
      exact sub_nonneg.2 (one_le_pow₀ (by norm_num))
    · -- a multiple of the last place of the largest binade below `2 ^ emax`
      obtain ⟨d, hd⟩ := Int.eq_ofNat_of_zero_le (show 0 ≤ e - ((F.emax : ℤ) - F.prec) by omega)
      have he' : (2 : ℝ) ^ e = 2 ^ d * (2 : ℝ) ^ ((F.emax : ℤ) - F.prec) := by
        rw [← zpow_natCast, ← zpow_add₀ (by norm_num)]; congr 1; omega
      rw [habs, he', ← mul_assoc]
      refine mul_le_mul_of_nonneg_right ?_ (by positivity)
      rw [habs, he', h2, ← mul_assoc] at hlt
      have h3 := lt_of_mul_lt_mul_right hlt (show (0 : ℝ) ≤ 2 ^ ((F.emax : ℤ) - F.prec) by positivity)
      have h4 : |m| * 2 ^ d < 2 ^ F.prec := by exact_mod_cast h3
      have h5 : |m| * 2 ^ d ≤ 2 ^ F.prec - 1 := by omega
      exact_mod_cast h5
  rw [ord_of_val h]
  have := abs_le.1 key
  exact ⟨EReal.coe_le_coe_iff.2 this.1, EReal.coe_le_coe_iff.2 this.2⟩
end Ieee
open Ieee

section
variable {F : IeeeFormat} [Tol (Ieee F)]

theorem length_axis (i : Fin 3) : length (fun j : Fin 3 => if j = i then (1 : Ieee F) else 0) = 1 := by
  have hu : Usable i (fun j : Fin 3 => if j = i then (1 : Ieee F) else 0) := by
    refine ⟨?_, fun j hj => ⟨0, by show (if j = i then (1 : Ieee F) else 0).val? = _; rw [if_neg hj]; rfl⟩⟩
    show (if i = i then (1 : Ieee F) else 0) ≠ nan
    rw [if_pos rfl]; exact fun hc => by cases hc
  have h1 := dot_axis_like hu
  rw [if_pos rfl] at h1
  have hv : (dot (fun j : Fin 3 => if j = i then (1 : Ieee F) else 0) (fun j => if j = i then 1 else 0)).val? = some 1 := by
    rcases h1 with ⟨_, hc⟩ | ⟨s, _, hc⟩ | ⟨r, h1, h2⟩
    · cases hc
    · cases hc
    · rw [h1, ← h2]; rfl
  unfold length
  rw [eq_of_val hv (show (1 : Ieee F).val? = some 1 from rfl) one_ne_zero]
  refine eq_of_val (r := 1) ?_ rfl one_ne_zero
  show (@ite (Ieee F) ((1 : ℝ) < 0) _ _ _).val? = _
  rw [if_neg (by norm_num)]
  show (ofReal false (Real.sqrt 1)).val? = _
  rw [Real.sqrt_one]
  exact ofReal_val F.one_mem (by rw [abs_one]; exact one_lt_pow₀ (by norm_num) (by have := F.one_lt_emax; omega))

/-- **C118** What `make_aabb` returns for arbitrary values, at least one point being finite: the minimum and maximum in every coordinate are those over the
points whose coordinate is not NaN and whose other coordinates are finite.  So points with a NaN coordinate are ignored, and for finite points the box is
exact up to the largest numbers, without overflow.  Debug builds stop exactly if the box does not count as valid. -/
theorem C118_make_aabb (dbg : Bool) (pts : List (Vec (Ieee F) 3)) (heq : isEq (1 : Ieee F) 1 = true)
    (hfin : ∃ p ∈ pts, ∀ i, ∃ r, (p i).val? = some r) :
    ∃ b : AABB (Ieee F) 3,
      (∀ i, b.min i ≠ nan ∧ b.max i ≠ nan ∧
        IsLeast {x | ∃ p ∈ pts, (p i ≠ nan ∧ ∀ j, j ≠ i → ∃ r, (p j).val? = some r) ∧ x = ord (p i)} (ord (b.min i)) ∧
        IsGreatest {x | ∃ p ∈ pts, (p i ≠ nan ∧ ∀ j, j ≠ i → ∃ r, (p j).val? = some r) ∧ x = ord (p i)} (ord (b.max i))) ∧
      makeAABB dbg pts = if dbg && !b.isValid then .error .assertFailed else .ok b := by
  obtain ⟨q, hq, hqf⟩ := hfin
  have hemp : (!pts.isEmpty) = true := by
    cases pts with
    | nil => simp at hq
    | cons => rfl
  have hax : ∀ i : Fin 3, ∃ m, extremePointsAlongDirection dbg (fun j => if j = i then (1 : Ieee F) else 0) pts = .ok m ∧
      m.min ≠ nan ∧ m.max ≠ nan ∧
      IsLeast {x | ∃ p ∈ pts, Usable i p ∧ x = ord (p i)} (ord m.min) ∧ IsGreatest {x | ∃ p ∈ pts, Usable i p ∧ x = ord (p i)} (ord m.max) := by
    intro i
    have hqu : Usable i q := ⟨fun hc => by obtain ⟨r, hr⟩ := hqf i; rw [hc] at hr; simp [val?] at hr, fun j _ => hqf j⟩
    have hqd : dot q (fun j => if j = i then (1 : Ieee F) else 0) ≠ nan := fun hc => hqu.1 ((dot_axis_like hqu).nan_iff.1 hc)
    obtain ⟨r, hr⟩ := hqf i
    have hlim := limits hr
    obtain ⟨h0, _, h3, h4, h5⟩ := extremeLoop_ieee (fun j : Fin 3 => if j = i then (1 : Ieee F) else 0)
      ⟨HasLimits.maxVal, HasLimits.lowest⟩ (fun hc => by cases hc) (fun hc => by cases hc) pts
    have use : ∀ p, dot p (fun j => if j = i then (1 : Ieee F) else 0) ≠ nan → Usable i p := by
      intro p hp; by_contra hc; exact hp (dot_axis_nan hc)
    have nn : ∀ p, Usable i p → dot p (fun j => if j = i then (1 : Ieee F) else 0) ≠ nan := fun p hp hc => hp.1 ((dot_axis_like hp).nan_iff.1 hc)
    refine ⟨extremeLoop (fun j => if j = i then 1 else 0) ⟨HasLimits.maxVal, HasLimits.lowest⟩ pts, ?_, h0.1, h0.2, ⟨?_, ?_⟩, ⟨?_, ?_⟩⟩
    · simp only [extremePointsAlongDirection, length_axis, hemp, heq]
      cases dbg <;> rfl
    · rcases h4 with h | ⟨p, hp, hn, h⟩
      · refine ⟨q, hq, hqu, le_antisymm ?_ (by rw [h]; exact hlim.2)⟩
        rw [← (dot_axis_like hqu).ord]; exact (h3 q hq hqd).1
      · exact ⟨p, hp, use p hn, by rw [h, (dot_axis_like (use p hn)).ord]⟩
    · rintro x ⟨p, hp, hu, rfl⟩
      rw [← (dot_axis_like hu).ord]; exact (h3 p hp (nn p hu)).1
    · rcases h5 with h | ⟨p, hp, hn, h⟩
      · refine ⟨q, hq, hqu, le_antisymm (by rw [h]; exact hlim.1) ?_⟩
        rw [← (dot_axis_like hqu).ord]; exact (h3 q hq hqd).2
      · exact ⟨p, hp, use p hn, by rw [h, (dot_axis_like (use p hn)).ord]⟩
    · rintro x ⟨p, hp, hu, rfl⟩
      rw [← (dot_axis_like hu).ord]; exact (h3 p hp (nn p hu)).2
  obtain ⟨m0, a0, b0⟩ := hax 0
  obtain ⟨m1, a1, b1⟩ := hax 1
  obtain ⟨m2, a2, b2⟩ := hax 2
  refine ⟨⟨fun i => if i = 0 then m0.min else if i = 1 then m1.min else m2.min,
    fun i => if i = 0 then m0.max else if i = 1 then m1.max else m2.max⟩, ?_, ?_⟩
  · intro i
    fin_cases i
    · exact b0
    · exact b1
    · exact b2
  · simp only [makeAABB, a0, a1, a2, hemp, AABB.mk?, ok_bind, geoAssert_true, geoAssert_bind]
    rfl

/-- **C118** If no point is free of NaN, the box is inside out: from the largest to the lowest number. -/
theorem C118_only_nan (pts : List (Vec (Ieee F) 3)) (h : ∀ p ∈ pts, ∃ i, p i = nan) :
    makeAABB false pts = .ok ⟨fun _ => HasLimits.maxVal, fun _ => HasLimits.lowest⟩ := by
  have hd : ∀ i : Fin 3, extremeLoop (fun j => if j = i then (1 : Ieee F) else 0) ⟨HasLimits.maxVal, HasLimits.lowest⟩ pts = ⟨HasLimits.maxVal, HasLimits.lowest⟩ := by
    intro i
    induction pts with
    | nil => rfl
    | cons p rest ih =>
      have hn : dot p (fun j => if j = i then (1 : Ieee F) else 0) = nan := by
        apply dot_axis_nan
        rintro ⟨h1, h2⟩
        obtain ⟨j, hj⟩ := h p (by simp)
        by_cases hji : j = i
        · exact h1 (hji ▸ hj)
        · obtain ⟨r, hr⟩ := h2 j hji
          rw [hj] at hr; simp [val?] at hr
      rw [extremeLoop, hn]
      simp only [not_nan_lt, not_lt_nan, if_false]
      exact ih fun q hq => h q (List.mem_cons_of_mem _ hq)
  simp only [makeAABB, extremePointsAlongDirection, AABB.mk?, hd, geoAssert]
  simp [bind, Except.bind, pure, Except.pure]

/-- **C118** (infinite coordinates) The box of three points does not contain the finite coordinate of the third: the product of its infinite
coordinate with the zero of the axis is NaN. -/
theorem C118_counterexample (heq : isEq (1 : Ieee F) 1 = true) :
    ∃ b : AABB (Ieee F) 3, makeAABB false [fun _ => 0, fun _ => 1, fun i => if i = 0 then inf false else 2] = .ok b ∧ b.max 0 = inf false ∧
      (b.max 1).val? = some 1 ∧ (2 : Ieee F).val? = some 2 := by
  have v0 : (0 : Ieee F).val? = some 0 := rfl
  have v1 : (1 : Ieee F).val? = some 1 := rfl
  have v2 : (2 : Ieee F).val? = some 2 := by
    rw [near_two.val]
    show some (F.rnd 2) = some 2
    rw [F.rounds.exact (by simpa using pow_mem F.toFloatFormat 1)]
  obtain ⟨b, hb, hm⟩ := C118_make_aabb false [fun _ => 0, fun _ => (1 : Ieee F), fun i => if i = 0 then inf false else 2] heq
    ⟨fun _ => 0, by simp, fun _ => ⟨0, v0⟩⟩
  refine ⟨b, by simpa using hm, ?_, ?_, v2⟩
  · obtain ⟨_, hn, _, _, h2⟩ := hb 0
    have := h2 ⟨fun i => if i = 0 then inf false else 2, by simp, ⟨by simp, fun j hj => ⟨2, by show (if j = 0 then inf false else (2 : Ieee F)).val? = _; rw [if_neg hj, v2]⟩⟩, rfl⟩
    simp only [if_true, ord, top_le_iff] at this
    cases hx : b.max 0 with
    | nan => exact absurd hx hn
    | inf s => rw [hx] at this; cases s <;> simp_all [ord]
    | negZero => rw [hx] at this; simp at this
    | fin x h => rw [hx] at this; simp at this
  · obtain ⟨_, hn, _, ⟨p, hp, hu, h1⟩, h2⟩ := hb 1
    have h3 := h2 ⟨fun _ => 1, by simp, ⟨fun hc => (by cases hc), fun j hj => ⟨1, v1⟩⟩, rfl⟩
    simp only [List.mem_cons, List.not_mem_nil, or_false] at hp
    have one : ord (b.max 1) = ((1 : ℝ) : EReal) := by
      rcases hp with rfl | rfl | rfl
      · rw [h1, ord_of_val v0, ord_of_val v1] at h3
        exact absurd (EReal.coe_le_coe_iff.1 h3) (by norm_num)
      · rw [h1, ord_of_val v1]
      · obtain ⟨r, hr⟩ := hu.2 0 (by decide)
        simp [val?] at hr
    cases hx : b.max 1 with
    | nan => exact absurd hx hn
    | inf s =>
      rw [hx] at one
      cases s
      · exact absurd (show (⊤ : EReal) = _ from one).symm (EReal.coe_ne_top _)
      · exact absurd (show (⊥ : EReal) = _ from one).symm (EReal.coe_ne_bot _)
    | negZero => rw [hx] at one; simp [ord] at one
    | fin x h => rw [hx] at one; simp only [ord, EReal.coe_eq_coe_iff] at one; simp [val?, one]

/-- **C118** `add`: NaN coordinates of the added points are skipped, the other coordinates of these points are not; a box that has a NaN corner keeps it.
(If comparisons with NaN are false.) -/
theorem C118_add {D : Nat} (h1 : ∀ a : Ieee F, isLess nan a = false ∧ isLess a nan = false) (h2 : ∀ a : Ieee F, isGreater nan a = false ∧ isGreater a nan = false)
    (b : AABB (Ieee F) D) (pts : List (Vec (Ieee F) D)) (i : Fin D) :
    (pts.foldl AABB.add b).min i = ((pts.filter fun p => @decide (p i ≠ nan) (Classical.propDecidable _)).foldl AABB.add b).min i ∧
    (pts.foldl AABB.add b).max i = ((pts.filter fun p => @decide (p i ≠ nan) (Classical.propDecidable _)).foldl AABB.add b).max i ∧
    (b.min i = nan → (pts.foldl AABB.add b).min i = nan) ∧ (b.max i = nan → (pts.foldl AABB.add b).max i = nan) := by
  classical
  have key : ∀ (pts : List (Vec (Ieee F) D)) (b c : AABB (Ieee F) D), b.min i = c.min i → b.max i = c.max i →
      (pts.foldl AABB.add b).min i = ((pts.filter fun p => @decide (p i ≠ nan) (Classical.propDecidable _)).foldl AABB.add c).min i ∧
      (pts.foldl AABB.add b).max i = ((pts.filter fun p => @decide (p i ≠ nan) (Classical.propDecidable _)).foldl AABB.add c).max i := by
    intro pts
    induction pts with
    | nil => intro b c e1 e2; exact ⟨e1, e2⟩
    | cons p rest ih =>
      intro b c e1 e2
      by_cases hp : p i = nan
      · rw [List.filter_cons_of_neg (by simp [hp]), List.foldl_cons]
        refine ih _ _ ?_ ?_
        · rw [← e1]; simp [AABB.add, hp, h1]
        · rw [← e2]; simp [AABB.add, hp, h2]
      · rw [List.filter_cons_of_pos (by simp [hp]), List.foldl_cons, List.foldl_cons]
        refine ih _ _ ?_ ?_
        · simp only [AABB.add, e1]
        · simp only [AABB.add, e2]
  refine ⟨(key pts b b rfl rfl).1, (key pts b b rfl rfl).2, ?_, ?_⟩
  · induction pts generalizing b with
    | nil => exact id
    | cons p rest ih => intro hb; exact ih _ (by simp [AABB.add, hb, h1])
  · induction pts generalizing b with
    | nil => exact id
    | cons p rest ih => intro hb; exact ih _ (by simp [AABB.add, hb, h2])
end

/-! ### Concrete cases -/
section Examples

/-- Exact comparisons, false for NaN. -/
@[reducible] noncomputable def tolExact (F : IeeeFormat) : Tol (Ieee F) where
  eps := 0
  isLess a b _ := decide (a < b)
  isGreater a b _ := decide (b < a)
  isLessEq a b _ := decide (a < b) || (a == b)
  isGreaterEq a b _ := decide (b < a) || (a == b)
  isEq a b _ := a == b
  isZero a _ := a == 0
attribute [local instance] tolExact

theorem isEq_one_exact {F : IeeeFormat} : isEq (1 : Ieee F) 1 = true := by
  show ((1 : Ieee F) == 1) = true
  rw [beq_iff]
  exact ⟨fun hc => (by cases hc), fun hc => (by cases hc), rfl⟩

/-- Three points, one of them with a NaN coordinate. -/
example : ∃ b : AABB (Ieee double64) 3, makeAABB false [![ie64 1, ie64 2, ie64 3], ![ie64 9, nan, ie64 9], ![ie64 4, ie64 (-5), ie64 6]] = .ok b ∧
    ord (b.min 1) ≤ ord (ie64 (-5)) := by
  obtain ⟨b, hb, hm⟩ := C118_make_aabb (F := double64) false [![ie64 1, ie64 2, ie64 3], ![ie64 9, nan, ie64 9], ![ie64 4, ie64 (-5), ie64 6]] isEq_one_exact
    ⟨![ie64 1, ie64 2, ie64 3], by simp, fun i => by fin_cases i <;> exact ⟨_, rfl⟩⟩
  refine ⟨b, by simpa using hm, (hb 1).2.2.1.2 ⟨![ie64 4, ie64 (-5), ie64 6], by simp, ⟨?_, ?_⟩, rfl⟩⟩
  · exact fun hc => by cases hc
  · intro j _; fin_cases j <;> exact ⟨_, rfl⟩

example : makeAABB false [![ie64 1, nan, ie64 3], ![nan, nan, ie64 9]] = .ok ⟨fun _ => HasLimits.maxVal, fun _ => HasLimits.lowest⟩ :=
  C118_only_nan (F := double64) _ (by
    intro p hp
    simp only [List.mem_cons, List.not_mem_nil, or_false] at hp
    rcases hp with rfl | rfl
    · exact ⟨1, rfl⟩
    · exact ⟨0, rfl⟩)

example : ∃ b : AABB (Ieee double64) 3, makeAABB false [fun _ => 0, fun _ => 1, fun i => if i = 0 then inf false else 2] = .ok b ∧ (b.max 1).val? = some 1 := by
  obtain ⟨b, h1, _, h3, _⟩ := C118_counterexample (F := double64) isEq_one_exact
  exact ⟨b, h1, h3⟩

example : (([![ie64 7, nan], ![nan, ie64 3]] : List (Vec (Ieee double64) 2)).foldl AABB.add ⟨![nan, ie64 0], ![ie64 1, ie64 1]⟩).min 0 = nan :=
  (C118_add (F := double64) (fun a => ⟨by show decide (_ < _) = _; simp, by show decide (_ < _) = _; simp⟩) (fun a => ⟨by show decide (_ < _) = _; simp, by show decide (_ < _) = _; simp⟩)
    ⟨![nan, ie64 0], ![ie64 1, ie64 1]⟩ [![ie64 7, nan], ![nan, ie64 3]] 0).2.2.1 rfl
end Examples
end Verif
