import Verif.Props.FloatNormal
import Verif.Props.FloatLengthGrid

set_option linter.unusedSectionVars false

/-
C161: vectors along a coordinate axis in floating point arithmetic.
-/
namespace Verif
open Spec

section
variable {p : ℕ} {emin : Option ℤ} {rnd : ℝ → ℝ}

/-- In binary, the rounded root of the rounded square is not greater than the number (without underflow). -/
theorem _root_.Verif.Spec.Rounds.sqrt_sq_le (hp : 1 < p) (h : Rounds p emin rnd) {d : ℝ} (hd : Representable p emin d) (h0 : 0 ≤ d)
    (hs : Safe p emin d) (hs2 : Safe p emin (d * d)) : rnd (Real.sqrt (rnd (d * d))) ≤ d := by
  rcases h0.eq_or_lt with rfl | h0
  · simp [h.zero]
  obtain ⟨m, e, hm1, hm2, hke, hval⟩ := hd.normal h0 hs
  have he := two_zpow_pos e
  have hP : (0 : ℝ) < 2 ^ p := by positivity
  have hmR : (m : ℝ) < 2 ^ p := by exact_mod_cast hm2
  have hm0 : (0 : ℝ) < m := by
    have : (0 : ℤ) < 2 ^ (p - 1) := by positivity
    exact_mod_cast this.trans_le hm1
  -- the next greater number is at least `2 ^ e` above
  have hsucc : ∀ v, Representable p emin v → d < v → d + 2 ^ e ≤ v := by
    rintro _ ⟨m', e', hm', _, rfl⟩ hlt
    by_cases hle : e ≤ e'
    · obtain ⟨k, hk⟩ := Int.eq_ofNat_of_zero_le (show 0 ≤ e' - e by omega)
      have hv : (m' : ℝ) * 2 ^ e' = ((m' * 2 ^ k : ℤ) : ℝ) * 2 ^ e := by
        rw [show e' = k + e by omega, zpow_add₀ (by norm_num)]; push_cast; rw [zpow_natCast]; ring
      rw [hv, hval] at hlt ⊢
      have := lt_of_mul_lt_mul_right hlt he.le
      have : m < m' * 2 ^ k := by exact_mod_cast this
      have : m + 1 ≤ m' * 2 ^ k := by omega
      have : ((m + 1 : ℤ) : ℝ) ≤ ((m' * 2 ^ k : ℤ) : ℝ) := by exact_mod_cast this
      have := mul_le_mul_of_nonneg_right this he.le
      push_cast at this ⊢
      linarith
    · exfalso
      have h1 : (m' : ℝ) ≤ 2 ^ (p : ℤ) := by
        have := (le_abs_self m').trans hm'.le
        have : (m' : ℝ) ≤ ((2 ^ p : ℤ) : ℝ) := by exact_mod_cast this
        rw [zpow_natCast]; push_cast at this; exact this
      have h2 : (m' : ℝ) * 2 ^ e' ≤ 2 ^ ((p - 1 : ℕ) : ℤ) * 2 ^ e := by
        calc (m' : ℝ) * 2 ^ e' ≤ 2 ^ (p : ℤ) * 2 ^ e' := mul_le_mul_of_nonneg_right h1 (two_zpow_pos e').le
          _ = 2 ^ ((p : ℤ) + e') := (zpow_add₀ (by norm_num) _ _).symm
          _ ≤ 2 ^ (((p - 1 : ℕ) : ℤ) + e) := zpow_le_zpow_right₀ (by norm_num) (by omega)
          _ = _ := zpow_add₀ (by norm_num) _ _
      have h3 : (2 : ℝ) ^ ((p - 1 : ℕ) : ℤ) ≤ m := by
        rw [zpow_natCast]; exact_mod_cast hm1
      have := mul_le_mul_of_nonneg_right h3 he.le
      rw [hval] at hlt; linarith
  set y := rnd (d * d) with hy
  have hyd : y ≤ (1 + (2 : ℝ)⁻¹ ^ p) * (d * d) := by
    have := h.error hp hs2
    rw [abs_of_nonneg (show 0 ≤ d * d by positivity)] at this
    have := (abs_le.1 this).2
    linarith
  have hmid : Real.sqrt y < d + 2 ^ e / 2 := by
    rw [Real.sqrt_lt' (by positivity)]
    refine lt_of_le_of_lt hyd ?_
    rw [hval]
    have key : (m : ℝ) ^ 2 * (2 : ℝ)⁻¹ ^ p ≤ m := by
      rw [inv_pow, ← div_eq_mul_inv, div_le_iff₀ hP]
      nlinarith
    have hee : (0 : ℝ) < 2 ^ e * 2 ^ e := by positivity
    nlinarith
  by_contra hc
  rw [not_le] at hc
  have h1 := hsucc _ (h.mem _) hc
  have hsd : d < Real.sqrt y := by
    by_contra hge
    exact absurd (h.of_le hd (not_lt.1 hge)) (not_le.2 hc)
  have h2 := h.nearest (Real.sqrt y) d hd
  rw [abs_of_neg (show d - Real.sqrt y < 0 by linarith), abs_of_pos (by linarith)] at h2
  linarith
end

section
variable {F : FloatFormat} {D : ℕ}

/-- The root of the square of a number of the format is the number. -/
theorem sqrt_mul_self_fl (x : Fl F) (hs : ∀ k, F.emin = some k → k + F.prec ≤ 1 ∧ (2 : ℝ) ^ ((k + F.prec) / 2) ≤ |x.1|) :
    (HasSqrt.sqrt (x * x)).1 = |x.1| := by
  rw [Fl.val_sqrt, Fl.val_mul]
  have hd : Representable F.prec F.emin |x.1| := by
    rcases abs_choice x.1 with h | h <;> rw [h]
    · exact x.2
    · exact x.2.neg
  have s1 : Safe F.prec F.emin |x.1| := .inr fun k hk => by
    rw [abs_abs]
    obtain ⟨h1, h2⟩ := hs k hk
    exact le_trans (zpow_le_zpow_right₀ (by norm_num) (by omega)) h2
  have s2 : Safe F.prec F.emin (|x.1| * |x.1|) := .inr fun k hk => by
    obtain ⟨h1, h2⟩ := hs k hk
    rw [abs_mul, abs_abs]
    refine le_trans ?_ (mul_le_mul h2 h2 (two_zpow_pos _).le (abs_nonneg _))
    rw [← zpow_add₀ (by norm_num)]
    exact zpow_le_zpow_right₀ (by norm_num) (by omega)
  rw [← abs_mul_abs_self x.1]
  exact le_antisymm (F.rounds.sqrt_sq_le F.one_lt_prec hd (abs_nonneg _) s1 s2) (F.rounds.sqrt_sq F.one_lt_prec hd (abs_nonneg _) s1 s2)

theorem dot_zeros (v : Vec (Fl F) D) (h0 : ∀ i, (v i).1 = 0) : (dot v v).1 = 0 := by
  induction D with
  | zero => rfl
  | succ D ih =>
    rw [dot_succ_last, Fl.val_add, ih _ fun i => h0 _, Fl.val_mul, h0]
    simp [F.rounds.zero]

theorem dot_axis (v : Vec (Fl F) D) (a : Fin D) (h0 : ∀ i, i ≠ a → (v i).1 = 0) : dot v v = v a * v a := by
  apply Fl.ext
  induction D with
  | zero => exact a.elim0
  | succ D ih =>
    rw [dot_succ_last, Fl.val_add]
    rcases Fin.eq_castSucc_or_eq_last a with ⟨b, rfl⟩ | rfl
    · rw [ih (fun i => v i.castSucc) b fun i hi => h0 _ fun h => hi (Fin.castSucc_injective _ h), Fl.val_mul (v (Fin.last D)),
        h0 (Fin.last D) (Fin.castSucc_lt_last b).ne']
      simp only [mul_zero, F.rounds.zero, add_zero]
      exact F.rounds.exact (v b.castSucc * v b.castSucc).2
    · rw [dot_zeros _ fun i => h0 _ (Fin.castSucc_lt_last i).ne, zero_add]
      exact F.rounds.exact (v (Fin.last D) * v (Fin.last D)).2

/-- The exact length of a vector along an axis. -/
theorem norm_axis (v : Vec ℝ D) (a : Fin D) (h0 : ∀ i, i ≠ a → v i = 0) : Spec.norm v = |v a| := by
  unfold Spec.norm
  rw [Finset.sum_eq_single a (fun i _ hi => by rw [h0 i hi]; ring) (by simp), Real.sqrt_sq_eq_abs]

/-- **C161** The computed length of a vector along a coordinate axis is its exact length, whatever the coordinate (unless its square underflows): the
rounding errors of the square and of the root cancel. -/
theorem C161_length (v : Vec (Fl F) D) (a : Fin D) (h0 : ∀ i, i ≠ a → (v i).1 = 0)
    (hs : ∀ k, F.emin = some k → k + F.prec ≤ 1 ∧ (2 : ℝ) ^ ((k + F.prec) / 2) ≤ |(v a).1|) :
    (length v).1 = Spec.norm (Fl.toReal v) := by
  rw [norm_axis (Fl.toReal v) a h0]
  unfold length
  rw [dot_axis v a h0]
  exact sqrt_mul_self_fl _ hs

/-- **C161** ... and normalising it gives exactly the unit vector along the axis. -/
theorem C161_normalize (v : Vec (Fl F) D) (a : Fin D) (hne : (v a).1 ≠ 0) (h0 : ∀ i, i ≠ a → (v i).1 = 0)
    (hs : ∀ k, F.emin = some k → k + F.prec ≤ 1 ∧ (2 : ℝ) ^ ((k + F.prec) / 2) ≤ |(v a).1|) :
    Fl.toReal (normalize v) = fun i => Fl.toReal v i / Spec.norm (Fl.toReal v) := by
  have hl := C161_length v a h0 hs
  have hn := norm_axis (Fl.toReal v) a h0
  have h1 : F.rnd 1 = 1 := F.rounds.exact F.one_mem
  funext i
  show (v i / length v).1 = _
  rw [Fl.val_div, hl, hn]
  show F.rnd ((v i).1 / |(v a).1|) = (v i).1 / |(v a).1|
  by_cases hi : i = a
  · subst hi
    rcases lt_or_gt_of_ne hne with h | h
    · rw [abs_of_neg h, div_neg, div_self hne, F.rounds.odd, h1]
    · rw [abs_of_pos h, div_self hne, h1]
  · rw [h0 i hi, zero_div, F.rounds.zero]

/-- **C161** A line or a ray made with a vector along an axis stores exactly the unit vector; the ray is made whenever the vector is longer than
the tolerance. -/
theorem C161_make [Tol (Fl F)] (dbg : Bool) (o v : Vec (Fl F) D) (a : Fin D) (hne : (v a).1 ≠ 0) (h0 : ∀ i, i ≠ a → (v i).1 = 0)
    (hs : ∀ k, F.emin = some k → k + F.prec ≤ 1 ∧ (2 : ℝ) ^ ((k + F.prec) / 2) ≤ |(v a).1|)
    (hlong : (Tol.eps : Fl F).1 < |(v a).1|) :
    (Line.make o v).origin = o ∧ (Fl.toReal (Line.make o v).direction = fun i => (v i).1 / |(v a).1|) ∧
    ∃ r, Ray.make dbg o v = .ok r ∧ r.origin = o ∧ Fl.toReal r.direction = fun i => (v i).1 / |(v a).1| := by
  have h := C161_normalize v a hne h0 hs
  have hn := norm_axis (Fl.toReal v) a h0
  rw [hn] at h
  refine ⟨rfl, h, ⟨o, normalize v⟩, ?_, rfl, h⟩
  unfold Ray.make
  have hl : (Tol.eps : Fl F) < length v := by
    rw [Fl.lt_iff, C161_length v a h0 hs, hn]
    exact hlong
  simp only [hl, decide_true, geoAssert]
  cases dbg <;> rfl

/-- **C161** ... and so does a plane. -/
theorem C161_plane (o v : Vec (Fl F) 3) (a : Fin 3) (hne : (v a).1 ≠ 0) (h0 : ∀ i, i ≠ a → (v i).1 = 0)
    (hs : ∀ k, F.emin = some k → k + F.prec ≤ 1 ∧ (2 : ℝ) ^ ((k + F.prec) / 2) ≤ |(v a).1|) :
    (Plane.make o v).origin = o ∧ Fl.toReal (Plane.make o v).normal = fun i => (v i).1 / |(v a).1| := by
  have h := C161_normalize v a hne h0 hs
  rw [norm_axis (Fl.toReal v) a h0] at h
  exact ⟨rfl, h⟩

/-- **C161** A segment parallel to an axis: the computed length is the correctly rounded length and the computed direction is exactly the direction. -/
theorem C161_segment (s : Segment (Fl F) D) (a : Fin D) (hne : (s.source a).1 ≠ (s.target a).1) (h0 : ∀ i, i ≠ a → (s.source i).1 = (s.target i).1)
    (hs : ∀ k, F.emin = some k → k + F.prec ≤ 1 ∧ (2 : ℝ) ^ ((k + F.prec) / 2) ≤ |(s.target a).1 - (s.source a).1|) :
    s.length.1 = F.rnd (Spec.dist (Fl.toReal s.target) (Fl.toReal s.source)) ∧
    Fl.toReal s.direction = fun i => ((s.target i).1 - (s.source i).1) / Spec.dist (Fl.toReal s.target) (Fl.toReal s.source) := by
  have hz : ∀ i, i ≠ a → (vsub s.target s.source i).1 = 0 := fun i hi => (Fl.sub_sign _ _).2.2 (h0 i hi).symm
  have hv : |(vsub s.target s.source a).1| = F.rnd |(s.target a).1 - (s.source a).1| := F.rounds.abs _
  have hs' : ∀ k, F.emin = some k → k + F.prec ≤ 1 ∧ (2 : ℝ) ^ ((k + F.prec) / 2) ≤ |(vsub s.target s.source a).1| := fun k hk => by
    obtain ⟨h1, h2⟩ := hs k hk
    refine ⟨h1, ?_⟩
    rw [hv]
    refine F.rounds.le_of (representable_two_pow F.one_lt_prec fun j hj => ?_) h2
    rw [hk, Option.some.injEq] at hj
    have := F.emin_le k hk
    omega
  have hne' : (vsub s.target s.source a).1 ≠ 0 := fun h => hne ((Fl.sub_sign _ _).2.1 h).symm
  have hd : Spec.dist (Fl.toReal s.target) (Fl.toReal s.source) = |(s.target a).1 - (s.source a).1| := by
    have := norm_axis (fun i => (s.target i).1 - (s.source i).1) a fun i hi => by rw [h0 i hi, sub_self]
    exact this
  refine ⟨?_, ?_⟩
  · rw [hd, ← hv]
    exact (C161_length _ a hz hs').trans (norm_axis (Fl.toReal (vsub s.target s.source)) a hz)
  · have h := C161_normalize _ a hne' hz hs'
    rw [norm_axis (Fl.toReal (vsub s.target s.source)) a hz] at h
    unfold Segment.direction
    rw [h, hd]
    funext i
    show (vsub s.target s.source i).1 / |(vsub s.target s.source a).1| = _
    by_cases hi : i = a
    · subst hi
      rcases lt_or_gt_of_ne hne with h | h
      · have h1 : 0 < (vsub s.target s.source i).1 := (Fl.sub_sign (s.target i) (s.source i)).1.2 h
        rw [abs_of_pos h1, abs_of_pos (sub_pos.2 h), div_self h1.ne', div_self (sub_pos.2 h).ne']
      · have h1 : (vsub s.target s.source i).1 < 0 := by
          rcases lt_trichotomy (vsub s.target s.source i).1 0 with h2 | h2 | h2
          · exact h2
          · exact absurd h2 hne'
          · exact absurd ((Fl.sub_sign _ _).1.1 h2) (not_lt.2 h.le)
        rw [abs_of_neg h1, abs_of_neg (sub_neg.2 h), div_neg, div_neg, div_self h1.ne, div_self (sub_neg.2 h).ne]
    · rw [hz i hi, h0 i hi, sub_self, zero_div, zero_div]

/-- The cross product of two vectors parallel to a coordinate plane. -/
theorem cross_axis {e f : Vec (Fl F) 3} {a : Fin 3} (he : (e a).1 = 0) (hf : (f a).1 = 0) (i : Fin 3) (hi : i ≠ a) : (cross e f i).1 = 0 := by
  have hl : ∀ x y : Fl F, x.1 = 0 → (x * y).1 = 0 := fun x y h => by rw [Fl.val_mul, h, zero_mul, F.rounds.zero]
  have hr : ∀ x y : Fl F, y.1 = 0 → (x * y).1 = 0 := fun x y h => by rw [Fl.val_mul, h, mul_zero, F.rounds.zero]
  have hsub : ∀ x y : Fl F, x.1 = 0 → y.1 = 0 → (x - y).1 = 0 := fun x y h h' => by rw [Fl.val_sub, h, h', sub_zero, F.rounds.zero]
  fin_cases a <;> fin_cases i <;> first | exact absurd rfl hi | (simp only [cross]; first | exact hsub _ _ (hl _ _ he) (hr _ _ hf) | exact hsub _ _ (hr _ _ hf) (hl _ _ he))

theorem cross_axis_real {e f : Vec ℝ 3} {a : Fin 3} (he : e a = 0) (hf : f a = 0) (i : Fin 3) (hi : i ≠ a) : cross e f i = 0 := by
  fin_cases a <;> fin_cases i <;> first | exact absurd rfl hi | (simp_all [cross])

/-- The computed cross product of the sides has at least half its length. -/
theorem cross_low (t : Vec (Fl F) 3 × Vec (Fl F) 3 × Vec (Fl F) 3) (hp : 9 ≤ F.prec) (hA0 : 0 < twiceArea (trueTriangle t))
    (hsmall : ∀ k, F.emin = some k → k ≤ -2 * (F.prec : ℤ) ∧ (2 : ℝ) ^ ((k + 1) / 2) ≤ (2 : ℝ)⁻¹ ^ F.prec * (twiceArea (trueTriangle t) / 2))
    (hshape : 16 * ((2 : ℝ)⁻¹ ^ F.prec * sidesProduct (trueTriangle t)) ≤ twiceArea (trueTriangle t)) :
    twiceArea (trueTriangle t) / 2 ≤ Spec.norm (Fl.vals (cross (vsub t.2.1 t.1) (vsub t.2.2 t.2.1))) := by
  have hD : 64 * (3 + 2) ≤ 2 ^ F.prec := le_trans (by norm_num) (Nat.pow_le_pow_right (by norm_num) hp)
  obtain ⟨ht0, ht1, ht2⟩ := tiny_of_length (by positivity : 0 < twiceArea (trueTriangle t) / 2) hsmall
  obtain ⟨f1, f2, f3, f4⟩ := dim_facts (D := 3) hD ht0
  have hu0 := F.unit_pos
  have ht00 := F.tiny_nonneg
  have hu : F.unit ≤ 1 / 256 := by push_cast at f2; linarith
  have hPA := twiceArea_le (trueTriangle t)
  have hc := cross_err (vsub t.2.1 t.1) (vsub t.2.2 t.2.1) (vsub (trueTriangle t).2.1 (trueTriangle t).1)
    (vsub (trueTriangle t).2.2 (trueTriangle t).2.1) hu (fun i => Fl.sub_rel _ _) (fun i => Fl.sub_rel _ _)
  change _ ≤ 51 / 8 * F.unit * sidesProduct (trueTriangle t) + _ at hc
  change 16 * (F.unit * _) ≤ _ at hshape
  have hN' := norm_sub_norm (Fl.vals (cross (vsub t.2.1 t.1) (vsub t.2.2 t.2.1)))
    (cross (vsub (trueTriangle t).2.1 (trueTriangle t).1) (vsub (trueTriangle t).2.2 (trueTriangle t).2.1))
  rw [← twiceArea_eq] at hN'
  have hUA : F.unit * F.unit * (twiceArea (trueTriangle t) / 2) ≤ 1 / 256 * (F.unit * twiceArea (trueTriangle t) / 2) := by
    have := mul_le_mul_of_nonneg_right hu (show 0 ≤ F.unit * twiceArea (trueTriangle t) / 2 by positivity)
    linarith
  have hUP : F.unit * twiceArea (trueTriangle t) ≤ F.unit * sidesProduct (trueTriangle t) := mul_le_mul_of_nonneg_left hPA hu0.le
  have := (abs_le.1 hN').1
  linarith

variable [BEq (Vec (Fl F) 3)] [LawfulBEq (Vec (Fl F) 3)]

/-- **C161** The computed normal of a facet parallel to a coordinate plane is exactly its unit normal, with the right sign; under the conditions of
C111 on angle and area. -/
theorem C161_facet (dbg : Bool) (M : Nat) (ts : List (Vec (Fl F) 3 × Vec (Fl F) 3 × Vec (Fl F) 3)) (hM : 3 * ts.length < M)
    (m : HalfedgeMesh (Vec (Fl F) 3)) (hb : BuiltFrom dbg M ts m) (hp : 9 ≤ F.prec) (j : Nat) (hj : j < ts.length)
    (a : Fin 3) (ha1 : ts[j].2.1 a = ts[j].1 a) (ha2 : ts[j].2.2 a = ts[j].1 a)
    (hA0 : 0 < twiceArea (trueTriangle ts[j]))
    (hsmall : ∀ k, F.emin = some k → k ≤ -2 * (F.prec : ℤ) ∧ (2 : ℝ) ^ ((k + 1) / 2) ≤ (2 : ℝ)⁻¹ ^ F.prec * (twiceArea (trueTriangle ts[j]) / 2))
    (hshape : 16 * ((2 : ℝ)⁻¹ ^ F.prec * sidesProduct (trueTriangle ts[j])) ≤ twiceArea (trueTriangle ts[j])) :
    ∃ f n, vecGet m.facets j = .ok f ∧ calcFacetNormal m f = .ok n ∧ IsNormal (trueTriangle ts[j]) (Fl.toReal n) := by
  obtain ⟨o, rfl⟩ := hb.eq hM
  have hl : (weld (corners ts)).2.length = 3 * ts.length := by rw [weld_length, corners_length]
  obtain ⟨h1, h2, -⟩ := normalOf_err ts[j] hp hA0 hsmall hshape
  have hlow := cross_low ts[j] hp hA0 hsmall hshape
  refine ⟨_, _, meshOfO_facet _ _ _ (by omega), calcFacetNormal_built o ts j hj, ?_⟩
  generalize ts[j] = t at *
  have e1 : (vsub t.2.1 t.1 a).1 = 0 := (Fl.sub_sign _ _).2.2 (by rw [ha1])
  have e2 : (vsub t.2.2 t.2.1 a).1 = 0 := (Fl.sub_sign _ _).2.2 (by rw [ha1, ha2])
  set c := cross (vsub t.2.1 t.1) (vsub t.2.2 t.2.1) with hc
  have hz : ∀ i, i ≠ a → (c i).1 = 0 := fun i hi => cross_axis e1 e2 i hi
  have hlow' : twiceArea (trueTriangle t) / 2 ≤ |(c a).1| := hlow.trans (norm_axis (Fl.vals c) a hz).le
  have hne : (c a).1 ≠ 0 := by
    intro h
    rw [h, abs_zero] at hlow'
    linarith
  have hn := C161_normalize c a hne hz fun k hk => by
    obtain ⟨q1, q2⟩ := hsmall k hk
    refine ⟨by omega, le_trans ?_ hlow'⟩
    rw [inv_pow, inv_mul_eq_div, le_div_iff₀ (by positivity), ← zpow_natCast, ← zpow_add₀ (by norm_num)] at q2
    exact le_trans (zpow_le_zpow_right₀ (by norm_num) (by omega)) q2
  rw [norm_axis (Fl.toReal c) a hz] at hn
  have r1 : vsub (trueTriangle t).2.1 (trueTriangle t).1 a = 0 := by
    show (t.2.1 a).1 - (t.1 a).1 = 0
    rw [ha1, sub_self]
  have r2 : vsub (trueTriangle t).2.2 (trueTriangle t).2.1 a = 0 := by
    show (t.2.2 a).1 - (t.2.1 a).1 = 0
    rw [ha1, ha2, sub_self]
  have hz' : ∀ i, i ≠ a → normalOf (trueTriangle t) i = 0 := fun i hi => by
    show cross _ _ i / _ = 0
    rw [cross_axis_real r1 r2 i hi, zero_div]
  have hone : |normalOf (trueTriangle t) a| = 1 := by
    rw [← norm_axis _ a hz']; exact h1.1
  have hone' : |Fl.toReal (normalOf t) a| = 1 := by
    show |Fl.toReal (normalize c) a| = 1
    rw [hn]
    show |(c a).1 / (|(c a).1|)| = 1
    rw [abs_div, abs_abs, div_self (abs_ne_zero.2 hne)]
  have hz'' : ∀ i, i ≠ a → Fl.toReal (normalOf t) i = 0 := fun i hi => by
    show Fl.toReal (normalize c) i = 0
    rw [hn]
    show (c i).1 / _ = 0
    rw [hz i hi, zero_div]
  have hd : Spec.dist (Fl.vals (normalOf t)) (normalOf (trueTriangle t)) = |Fl.toReal (normalOf t) a - normalOf (trueTriangle t) a| := by
    refine norm_axis (fun i => Fl.vals (normalOf t) i - normalOf (trueTriangle t) i) a fun i hi => ?_
    have := hz'' i hi
    rw [hz' i hi, sub_zero]
    exact this
  have hb : 21 * (2 : ℝ)⁻¹ ^ F.prec * (sidesProduct (trueTriangle t) / twiceArea (trueTriangle t)) ≤ 21 / 16 := by
    rw [← mul_div_assoc, div_le_iff₀ hA0]
    linarith
  have h2' : |Fl.toReal (normalOf t) a - normalOf (trueTriangle t) a| ≤ 21 / 16 := hd.symm.le.trans (h2.trans hb)
  have heq : Fl.toReal (normalOf t) = normalOf (trueTriangle t) := by
    funext i
    by_cases hi : i = a
    · subst hi
      rcases (abs_eq (by norm_num : (0 : ℝ) ≤ 1)).1 hone with q | q <;> rcases (abs_eq (by norm_num : (0 : ℝ) ≤ 1)).1 hone' with q' | q' <;> rw [q, q'] at h2' ⊢ <;> norm_num at h2'
    · rw [hz' i hi, hz'' i hi]
  rw [heq]
  exact h1
end

section Examples

theorem axis_small64 {x : ℝ} (h : 1 ≤ |x|) : ∀ k, binary64.emin = some k → k + binary64.prec ≤ 1 ∧ (2 : ℝ) ^ ((k + binary64.prec) / 2) ≤ |x| := by
  intro k hk
  cases hk
  refine ⟨by decide, le_trans ?_ h⟩
  exact zpow_le_one_of_nonpos₀ (by norm_num) (by decide)

/-- The vector (0, -94906267, 0), whose square is not a `double`. -/
example : (length (p64 0 (-94906267) 0)).1 = 94906267 ∧ Fl.toReal (normalize (p64 0 (-94906267) 0)) = ![0, -1, 0] := by
  have h0 : ∀ i : Fin 3, i ≠ 1 → ((p64 0 (-94906267) 0) i).1 = 0 := by
    intro i hi
    fin_cases i
    · simp [p64, fl64_val]
    · exact absurd rfl hi
    · simp [p64, fl64_val]
  have h1 : ((p64 0 (-94906267) 0) 1).1 = -94906267 := by simp [p64, fl64_val]
  have hs := axis_small64 (x := ((p64 0 (-94906267) 0) 1).1) (by rw [h1]; norm_num)
  have hn : Spec.norm (Fl.toReal (p64 0 (-94906267) 0)) = 94906267 := by
    rw [norm_axis (Fl.toReal _) 1 h0, show Fl.toReal (p64 0 (-94906267) 0) 1 = _ from h1]; norm_num
  refine ⟨(C161_length _ 1 h0 hs).trans hn, ?_⟩
  rw [C161_normalize _ 1 (by rw [h1]; norm_num) h0 hs, hn, p64_real]
  funext i; fin_cases i <;> norm_num

/-- A plane with normal along the third axis. -/
example : Fl.toReal (Plane.make (p64 1 2 3) (p64 0 0 7)).normal = ![0, 0, 1] := by
  have h1 : ((p64 0 0 7) 2).1 = 7 := by simp [p64, fl64_val]
  rw [(C161_plane (p64 1 2 3) (p64 0 0 7) 2 (by rw [h1]; norm_num) (by
    intro i hi
    fin_cases i
    · simp [p64, fl64_val]
    · simp [p64, fl64_val]
    · exact absurd rfl hi) (axis_small64 (by rw [h1]; norm_num))).2, h1]
  funext i; fin_cases i <;> simp [p64, fl64_val]

/-- A line and a ray along the first axis. -/
example : ∃ r, @Ray.make (Fl binary64) 3 _ _ _ _ _ tol64 _ _ true (p64 1 2 3) (p64 (-3) 0 0) = .ok r ∧ Fl.toReal r.direction = ![-1, 0, 0] ∧
    Fl.toReal (Line.make (p64 1 2 3) (p64 (-3) 0 0)).direction = ![-1, 0, 0] := by
  have h1 : ((p64 (-3) 0 0) 0).1 = -3 := by simp [p64, fl64_val]
  have hdir : (fun i => ((p64 (-3) 0 0) i).1 / |((p64 (-3) 0 0) 0).1|) = ![-1, 0, 0] := by
    rw [h1]; funext i; fin_cases i <;> simp [p64, fl64_val]
  obtain ⟨-, h2, r, h3, -, h4⟩ := @C161_make binary64 3 tol64 true (p64 1 2 3) (p64 (-3) 0 0) 0 (by rw [h1]; norm_num) (by
    intro i hi
    fin_cases i
    · exact absurd rfl hi
    · simp [p64, fl64_val]
    · simp [p64, fl64_val]) (axis_small64 (by rw [h1]; norm_num)) (by
      rw [h1]
      refine lt_of_le_of_lt (binary64.rounds.of_le binary64.one_mem (show (1 / 10 ^ 6 : ℝ) ≤ 1 by norm_num)) (by norm_num))
  exact ⟨r, h3, h4.trans hdir, h2.trans hdir⟩

/-- A segment parallel to the second axis. -/
example : Fl.toReal (⟨p64 1 9 3, p64 1 2 3⟩ : Segment (Fl binary64) 3).direction = ![0, -1, 0] := by
  have h1 : ((p64 1 9 3) 1).1 = 9 := by simp [p64, fl64_val]
  have h2 : ((p64 1 2 3) 1).1 = 2 := by simp [p64, fl64_val]
  rw [(C161_segment (⟨p64 1 9 3, p64 1 2 3⟩ : Segment (Fl binary64) 3) 1 (by simp only [h1, h2]; norm_num) (by
    intro i hi
    fin_cases i
    · simp [p64, fl64_val]
    · exact absurd rfl hi
    · simp [p64, fl64_val]) (axis_small64 (by simp only [h1, h2]; norm_num))).2]
  have hd : Spec.dist (Fl.toReal (p64 1 2 3)) (Fl.toReal (p64 1 9 3)) = 7 := by
    rw [p64_real, p64_real]
    unfold Spec.dist
    rw [Real.sqrt_eq_iff_mul_self_eq] <;> simp [Fin.sum_univ_three] <;> norm_num
  rw [hd]
  funext i; fin_cases i <;> (simp [p64, fl64_val]; try norm_num)

/-- The facet of a tetrahedron in the plane of the second and third axis. -/
example : ∃ m f n, buildMesh true (2 ^ 64) 64 tetra64 = .ok m ∧ vecGet m.facets 1 = .ok f ∧ calcFacetNormal m f = .ok n ∧
    IsNormal (trueTriangle (p64 0 15 0, p64 0 0 0, p64 0 0 5)) (Fl.toReal n) := by
  obtain ⟨m, hm, hb⟩ := C48_build_succeeds true (2 ^ 64) 64 tetra64 (by simp [tetra64]) tetra64_apart
  have hsh := corner64_shaped (p64 0 15 0, p64 0 0 0, p64 0 0 5) (by simp [corner64])
  obtain ⟨f, n, h1, h2, h3⟩ := C161_facet true (2 ^ 64) tetra64 (by simp [tetra64]) m hb (by show 9 ≤ 53; norm_num) 1 (by simp [tetra64]) 0 rfl rfl
    hsh.pos (fun k hk => ⟨by have := min64 k hk; omega, hsh.small k hk⟩) hsh.angle
  exact ⟨m, f, n, hm, h1, h2, h3⟩
end Examples
end Verif
