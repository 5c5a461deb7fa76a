import Verif.Props.FloatSphereHit
import Verif.Props.IeeeSegment3

set_option linter.unusedSectionVars false

/-
C153: intersections of spheres with lines, rays and segments in IEEE arithmetic, with overflow.
-/
namespace Verif
open Spec
namespace Ieee
variable {F : IeeeFormat}

/-- Comparisons that do not tell the two zeros apart. -/
structure ZeroBlind [Tol (Ieee F)] (e : Ieee F) : Prop where
  greater : ∀ b, Tol.isGreater (negZero : Ieee F) b e = Tol.isGreater 0 b e
  greaterEq : ∀ b, Tol.isGreaterEq (negZero : Ieee F) b e = Tol.isGreaterEq 0 b e
  lessEq : ∀ b, Tol.isLessEq (negZero : Ieee F) b e = Tol.isLessEq 0 b e
  zero : Tol.isZero (negZero : Ieee F) e = Tol.isZero 0 e

/-- The comparisons of finite values, carried over to the arithmetic without largest exponent. -/
@[reducible] noncomputable def tolAs [Tol (Ieee F)] (e : Ieee F) : Tol (Fl F.toFloatFormat) :=
  haveI := Classical.propDecidable
  { eps := 0
    isLess := fun x y _ => decide (x.1 < y.1)
    isGreater := fun x y _ =>
      if h : |x.1| < 2 ^ F.emax ∧ |y.1| < 2 ^ F.emax then Tol.isGreater (fin x h.1) (fin y h.2) e else decide (y.1 < x.1)
    isLessEq := fun x y _ =>
      if h : |x.1| < 2 ^ F.emax ∧ |y.1| < 2 ^ F.emax then Tol.isLessEq (fin x h.1) (fin y h.2) e else decide (x.1 ≤ y.1)
    isGreaterEq := fun x y _ =>
      if h : |x.1| < 2 ^ F.emax ∧ |y.1| < 2 ^ F.emax then Tol.isGreaterEq (fin x h.1) (fin y h.2) e else decide (y.1 ≤ x.1)
    isEq := fun x y _ => decide (x.1 = y.1)
    isZero := fun x _ => if h : |x.1| < 2 ^ F.emax then Tol.isZero (fin x h) e else false }

theorem one_small : |(1 : Fl F.toFloatFormat).1| < 2 ^ F.emax := by
  show |(1 : ℝ)| < _; rw [abs_one]; exact one_lt_pow₀ (by norm_num) (by have := F.one_lt_emax; omega)

theorem zero_small' : |(0 : Fl F.toFloatFormat).1| < 2 ^ F.emax := by show |(0 : ℝ)| < _; rw [abs_zero]; positivity

section
variable [Tol (Ieee F)] {e : Ieee F} {k : ℕ} {a : Ieee F} {x : Fl F.toFloatFormat}

theorem Near.greater0 (hb : ZeroBlind e) (h : Near k a x) (e' : Fl F.toFloatFormat) : (tolAs e).isGreater x 0 e' = Tol.isGreater a 0 e := by
  rcases h.cases with ⟨rfl, rfl⟩ | ⟨hx, rfl⟩
  · rw [hb.greater]; exact dif_pos ⟨zero_small', zero_small'⟩
  · exact dif_pos ⟨hx, zero_small'⟩

theorem Near.greaterEq0 (hb : ZeroBlind e) (h : Near k a x) (e' : Fl F.toFloatFormat) : (tolAs e).isGreaterEq x 0 e' = Tol.isGreaterEq a 0 e := by
  rcases h.cases with ⟨rfl, rfl⟩ | ⟨hx, rfl⟩
  · rw [hb.greaterEq]; exact dif_pos ⟨zero_small', zero_small'⟩
  · exact dif_pos ⟨hx, zero_small'⟩

theorem Near.lessEq1 (hb : ZeroBlind e) (h : Near k a x) (e' : Fl F.toFloatFormat) : (tolAs e).isLessEq x 1 e' = Tol.isLessEq a 1 e := by
  rcases h.cases with ⟨rfl, rfl⟩ | ⟨hx, rfl⟩
  · rw [hb.lessEq]; exact dif_pos ⟨zero_small', one_small⟩
  · exact dif_pos ⟨hx, one_small⟩

theorem Near.zero0 (hb : ZeroBlind e) (h : Near k a x) (e' : Fl F.toFloatFormat) : (tolAs e).isZero x e' = Tol.isZero a e := by
  rcases h.cases with ⟨rfl, rfl⟩ | ⟨hx, rfl⟩
  · rw [hb.zero]; exact dif_pos zero_small'
  · exact dif_pos hx

/-- What the comparisons of finite values satisfy, the carried over ones do. -/
theorem tolAs_greater {τ : ℝ} (hτ : 0 ≤ τ) (h : ∀ (z : Ieee F) x, z.val? = some x → Tol.isGreater z 0 e = true → 0 ≤ x)
    (h' : ∀ (z : Ieee F) x, z.val? = some x → τ < x → Tol.isGreater z 0 e = true) (e' : Fl F.toFloatFormat) :
    (∀ x : Fl F.toFloatFormat, (tolAs e).isGreater x 0 e' = true → 0 ≤ x.1) ∧
    ∀ x : Fl F.toFloatFormat, τ < x.1 → (tolAs e).isGreater x 0 e' = true := by
  refine ⟨fun x hx => ?_, fun x hx => ?_⟩ <;> by_cases hb : |x.1| < 2 ^ F.emax ∧ |(0 : Fl F.toFloatFormat).1| < 2 ^ F.emax
  · exact h _ x.1 (rfl : (fin x hb.1 : Ieee F).val? = _) ((dif_pos hb).symm.trans hx)
  · exact (of_decide_eq_true ((dif_neg hb).symm.trans hx) : (0 : ℝ) < x.1).le
  · exact (dif_pos hb).trans (h' _ x.1 rfl hx)
  · exact (dif_neg hb).trans (@decide_eq_true _ (Classical.propDecidable _) (lt_of_le_of_lt hτ hx))

theorem tolAs_greaterEq {ρ : ℝ} (h : ∀ (z : Ieee F) x, z.val? = some x → Tol.isGreaterEq z 0 e = true → -ρ ≤ x)
    (h' : ∀ (z : Ieee F) x, z.val? = some x → 0 ≤ x → Tol.isGreaterEq z 0 e = true) (e' : Fl F.toFloatFormat) :
    (∀ x : Fl F.toFloatFormat, (tolAs e).isGreaterEq x 0 e' = true → -ρ ≤ x.1) ∧
    ∀ x : Fl F.toFloatFormat, 0 ≤ x.1 → (tolAs e).isGreaterEq x 0 e' = true := by
  have hρ : -ρ ≤ 0 := h 0 0 rfl (h' 0 0 rfl le_rfl)
  refine ⟨fun x hx => ?_, fun x hx => ?_⟩ <;> by_cases hb : |x.1| < 2 ^ F.emax ∧ |(0 : Fl F.toFloatFormat).1| < 2 ^ F.emax
  · exact h _ x.1 (rfl : (fin x hb.1 : Ieee F).val? = _) ((dif_pos hb).symm.trans hx)
  · exact hρ.trans (of_decide_eq_true ((dif_neg hb).symm.trans hx) : (0 : ℝ) ≤ x.1)
  · exact (dif_pos hb).trans (h' _ x.1 rfl hx)
  · exact (dif_neg hb).trans (@decide_eq_true _ (Classical.propDecidable _) hx)

theorem tolAs_lessEq {ρ : ℝ} (h : ∀ (z : Ieee F) x, z.val? = some x → Tol.isLessEq z 1 e = true → x ≤ 1 + ρ)
    (h' : ∀ (z : Ieee F) x, z.val? = some x → x ≤ 1 → Tol.isLessEq z 1 e = true) (e' : Fl F.toFloatFormat) :
    (∀ x : Fl F.toFloatFormat, (tolAs e).isLessEq x 1 e' = true → x.1 ≤ 1 + ρ) ∧
    ∀ x : Fl F.toFloatFormat, x.1 ≤ 1 → (tolAs e).isLessEq x 1 e' = true := by
  have hρ : 1 ≤ 1 + ρ := h 1 1 rfl (h' 1 1 rfl le_rfl)
  refine ⟨fun x hx => ?_, fun x hx => ?_⟩ <;> by_cases hb : |x.1| < 2 ^ F.emax ∧ |(1 : Fl F.toFloatFormat).1| < 2 ^ F.emax
  · exact h _ x.1 (rfl : (fin x hb.1 : Ieee F).val? = _) ((dif_pos hb).symm.trans hx)
  · exact (of_decide_eq_true ((dif_neg hb).symm.trans hx) : x.1 ≤ (1 : ℝ)).trans hρ
  · exact (dif_pos hb).trans (h' _ x.1 rfl hx)
  · exact (dif_neg hb).trans (@decide_eq_true _ (Classical.propDecidable _) hx)

theorem tolAs_zero {τ : ℝ} (h : ∀ (z : Ieee F) x, z.val? = some x → Tol.isZero z e = true → |x| ≤ τ) (e' : Fl F.toFloatFormat)
    (x : Fl F.toFloatFormat) (hx : (tolAs e).isZero x e' = true) : |x.1| ≤ τ := by
  by_cases hb : |x.1| < 2 ^ F.emax
  · exact h _ x.1 (rfl : (fin x hb : Ieee F).val? = _) ((dif_pos hb).symm.trans hx)
  · exact absurd ((dif_neg hb).symm.trans hx) (by simp)
end

theorem near_four (h : 2 < F.emax) : Near 2 (4 : Ieee F) 4 := ofReal_near (by norm_num) h

/-- The coefficients of the quadratic equation and its discriminant. -/
theorem sphere_near {j k : ℕ} {l c d : Vec (Ieee F) 3} {x w y : Vec (Fl F.toFloatFormat) 3} {r : Ieee F} {r' : Fl F.toFloatFormat}
    (hl : NearVec k l x) (hc : NearVec k c w) (hd : NearVec j d y) (hr : Near k r r') (hk : 2 * j + 2 * k + 12 < F.emax) :
    Near (2 * j + 3) (dot d d) (dot y y) ∧ Near (j + k + 5) (2 * dot d (vsub l c)) (2 * dot y (vsub x w)) ∧
    Near (2 * j + 2 * k + 12)
      (2 * dot d (vsub l c) * (2 * dot d (vsub l c)) - 4 * dot d d * (dot (vsub l c) (vsub l c) - r * r))
      (2 * dot y (vsub x w) * (2 * dot y (vsub x w)) - 4 * dot y y * (dot (vsub x w) (vsub x w) - r' * r')) := by
  have hw := hl.vsub hc (by omega)
  have a := hd.dot hd (by omega)
  have b := near_two.mul (hd.dot hw (by omega)) (by omega)
  have q := ((hw.dot hw (by omega)).mono (by omega : _ ≤ 2 * k + 5)).sub ((hr.mul hr (by omega)).mono (by omega)) (by omega)
  have f := ((near_four (by omega)).mul a (by omega)).mul q (by omega)
  exact ⟨a.mono (by omega), b.mono (by omega), (((b.mul b (by omega)).mono (by omega : _ ≤ 2 * j + 2 * k + 11)).sub (f.mono (by omega)) (by omega)).mono (by omega)⟩

/-- The parameters. -/
theorem sphere_params_near {j k q : ℕ} {a b D : Ieee F} {a' b' D' : Fl F.toFloatFormat} (ha : Near (2 * j + 3) a a') (hb : Near (j + k + 5) b b')
    (hD : Near (2 * j + 2 * k + 12) D D') (h0 : 0 ≤ D'.1) (hq : 1 ≤ 2 * a'.1 * 2 ^ q) (hk : j + k + 7 + q < F.emax) (hj : 2 * j + 4 < F.emax) :
    Near (j + k + 7 + q) ((-b + HasSqrt.sqrt D) / (2 * a)) ((-b' + HasSqrt.sqrt D') / (2 * a')) ∧
    Near (j + k + 7 + q) ((-b - HasSqrt.sqrt D) / (2 * a)) ((-b' - HasSqrt.sqrt D') / (2 * a')) := by
  have hs : Near (j + k + 6) _ _ := hD.sqrt h0 (by omega) (by omega)
  have hb' := hb.neg.mono (by omega : _ ≤ j + k + 6)
  have h2 := near_two.mul ha (by omega)
  have hy : 1 ≤ |(2 * a').1| * 2 ^ q := by
    rw [Fl.double_exact]
    exact hq.trans (mul_le_mul_of_nonneg_right (le_abs_self _) (by positivity))
  exact ⟨(hb'.add hs (by omega)).div h2 hy (by omega), (hb'.sub hs (by omega)).div h2 hy (by omega)⟩

/-- The parameter of a single point. -/
theorem sphere_touch_near {j k : ℕ} {a b : Ieee F} {a' b' : Fl F.toFloatFormat} (ha : Near (2 * j + 3) a a') (hb : Near (j + k + 5) b b')
    (hk : 3 * j + k + 8 < F.emax) : Near (3 * j + k + 8) (-b / 2 * a) (-b' / 2 * a') := by
  have h := hb.neg.div (j := 0) near_two (by rw [F.two_exact]; norm_num) (by omega)
  exact (h.mul ha (by omega)).mono (by omega)

theorem point_near {i j k m : ℕ} {o d : Vec (Ieee F) 3} {x y : Vec (Fl F.toFloatFormat) 3} {t : Ieee F} {s : Fl F.toFloatFormat} (ho : NearVec k o x)
    (hd : NearVec j d y) (ht : Near i t s) (h1 : k ≤ m) (h2 : j + i ≤ m) (h3 : m + 1 < F.emax) :
    NearVec (m + 1) (vadd o (vscale d t)) (vadd x (vscale y s)) :=
  (ho.mono h1).vadd ((hd.vscale ht (by omega)).mono h2) h3

/-- Both reported points. -/
def SameHits (m : ℕ) (u : SphereIntersection (Ieee F)) (v : SphereIntersection (Fl F.toFloatFormat)) : Prop :=
  Option.Rel (NearVec m) u.first v.first ∧ Option.Rel (NearVec m) u.second v.second

theorem rel_some {m : ℕ} {o : Option (Vec (Ieee F) 3)} {o' : Option (Vec (Fl F.toFloatFormat) 3)} (h : Option.Rel (NearVec m) o o') :
    (∀ p, o = some p → ∃ p', o' = some p' ∧ NearVec m p p') ∧ (∀ p', o' = some p' → ∃ p, o = some p ∧ NearVec m p p') ∧ (o = none ↔ o' = none) := by
  cases h with
  | none => exact ⟨by simp, by simp, by simp⟩
  | some h => refine ⟨?_, ?_, by simp⟩ <;> (intro p hp; cases hp; exact ⟨_, rfl, h⟩)

variable [Tol (Ieee F)]

theorem line_hits {k q : ℕ} {s : Sphere (Ieee F)} {ln : Line (Ieee F) 3} {e : Ieee F} {s' : Sphere (Fl F.toFloatFormat)} {ln' : Line (Fl F.toFloatFormat) 3}
    (e' : Fl F.toFloatFormat) (hb : ZeroBlind e) (h : ∀ (z : Ieee F) x, z.val? = some x → Tol.isGreater z 0 e = true → 0 ≤ x)
    (hs : NearVec k s.origin s'.origin) (hr : Near k s.radius s'.radius) (ho : NearVec k ln.origin ln'.origin) (hd : NearVec 1 ln.direction ln'.direction)
    (hq : 1 ≤ 2 * (dot ln'.direction ln'.direction).1 * 2 ^ q) (hq3 : q ≤ 3) (hk : 2 * k + 14 < F.emax) :
    SameHits (k + 13) (intersectSphereLine s ln e) (@intersectSphereLine _ _ _ _ _ _ _ _ _ _ (tolAs e) s' ln' e') := by
  obtain ⟨ha, hbb, hD⟩ := sphere_near ho hs hd hr (by omega)
  have g := hD.greater0 hb e'
  have z := hD.zero0 hb e'
  have t := sphere_touch_near ha hbb (by omega)
  unfold intersectSphereLine
  simp only
  rw [g, z]
  split_ifs with h1 h2
  · obtain ⟨t1, t2⟩ := sphere_params_near ha hbb hD (h _ _ hD.val h1) hq (by omega) (by omega)
    exact ⟨.some (point_near ho hd t1 (by omega) (by omega) (by omega)), .some (point_near ho hd t2 (by omega) (by omega) (by omega))⟩
  · exact ⟨.some (point_near ho hd t (by omega) (by omega) (by omega)), .none⟩
  · exact ⟨.none, .none⟩

theorem ray_hits {k q : ℕ} {s : Sphere (Ieee F)} {ry : Ray (Ieee F) 3} {e : Ieee F} {s' : Sphere (Fl F.toFloatFormat)} {ry' : Ray (Fl F.toFloatFormat) 3}
    (e' : Fl F.toFloatFormat) (hb : ZeroBlind e) (h : ∀ (z : Ieee F) x, z.val? = some x → Tol.isGreater z 0 e = true → 0 ≤ x)
    (hs : NearVec k s.origin s'.origin) (hr : Near k s.radius s'.radius) (ho : NearVec k ry.origin ry'.origin) (hd : NearVec 1 ry.direction ry'.direction)
    (hq : 1 ≤ 2 * (dot ry'.direction ry'.direction).1 * 2 ^ q) (hq3 : q ≤ 3) (hk : 2 * k + 14 < F.emax) :
    SameHits (k + 13) (intersectSphereRay s ry e) (@intersectSphereRay _ _ _ _ _ _ _ _ _ _ (tolAs e) s' ry' e') := by
  obtain ⟨ha, hbb, hD⟩ := sphere_near ho hs hd hr (by omega)
  have g := hD.greater0 hb e'
  have z := hD.zero0 hb e'
  have t := sphere_touch_near ha hbb (by omega)
  have tg := t.greaterEq0 hb e'
  unfold intersectSphereRay
  simp only
  rw [g, z, tg]
  by_cases h1 : Tol.isGreater (2 * dot ry.direction (vsub ry.origin s.origin) * (2 * dot ry.direction (vsub ry.origin s.origin)) -
      4 * dot ry.direction ry.direction * (dot (vsub ry.origin s.origin) (vsub ry.origin s.origin) - s.radius * s.radius)) 0 e = true
  · obtain ⟨t1, t2⟩ := sphere_params_near ha hbb hD (h _ _ hD.val h1) hq (by omega) (by omega)
    rw [if_pos h1, if_pos h1, t1.greaterEq0 hb e', t2.greaterEq0 hb e']
    constructor
    · show Option.Rel _ (if _ then _ else _) (if _ then _ else _)
      split_ifs
      · exact .some (point_near ho hd t1 (by omega) (by omega) (by omega))
      · exact .none
    · show Option.Rel _ (if _ then _ else _) (if _ then _ else _)
      split_ifs
      · exact .some (point_near ho hd t2 (by omega) (by omega) (by omega))
      · exact .none
  · rw [if_neg h1, if_neg h1]
    split_ifs
    · exact ⟨.some (point_near ho hd t (by omega) (by omega) (by omega)), .none⟩
    · exact ⟨.none, .none⟩
    · exact ⟨.none, .none⟩

theorem segment_hits {k q : ℕ} {ρ : ℝ} {s : Sphere (Ieee F)} {sg : Segment (Ieee F) 3} {e : Ieee F} {s' : Sphere (Fl F.toFloatFormat)}
    {sg' : Segment (Fl F.toFloatFormat) 3}
    (e' : Fl F.toFloatFormat) (hb : ZeroBlind e) (h : ∀ (z : Ieee F) x, z.val? = some x → Tol.isGreater z 0 e = true → 0 ≤ x)
    (hge : ∀ (z : Ieee F) x, z.val? = some x → Tol.isGreaterEq z 0 e = true → -ρ ≤ x)
    (hle : ∀ (z : Ieee F) x, z.val? = some x → Tol.isLessEq z 1 e = true → x ≤ 1 + ρ) (hρ : ρ ≤ 1)
    (hs : NearVec k s.origin s'.origin) (hr : Near k s.radius s'.radius) (ho : NearVec k sg.source sg'.source) (ht : NearVec k sg.target sg'.target)
    (hq : 1 ≤ 2 * (dot (vsub sg'.target sg'.source) (vsub sg'.target sg'.source)).1 * 2 ^ q) (hk : 4 * k + 14 < F.emax) (hkq : 2 * k + q + 8 < F.emax) :
    SameHits (k + 3) (intersectSphereSegment s sg e) (@intersectSphereSegment _ _ _ _ _ _ _ _ _ _ _ (tolAs e) s' sg' e') := by
  have hd := ht.vsub ho (by omega)
  obtain ⟨ha, hbb, hD⟩ := sphere_near ho hs hd hr (by omega)
  have g := hD.greater0 hb e'
  have z := hD.zero0 hb e'
  have t := sphere_touch_near ha hbb (by omega)
  have tg := t.greaterEq0 hb e'
  have tl := t.lessEq1 hb e'
  have pt : ∀ {i : ℕ} {u : Ieee F} {v : Fl F.toFloatFormat}, Near i u v → (Tol.isGreaterEq u 0 e && Tol.isLessEq u 1 e) = true →
      NearVec (k + 3) (vadd sg.source (vscale (vsub sg.target sg.source) u)) (vadd sg'.source (vscale (vsub sg'.target sg'.source) v)) := by
    intro i u v hn hc
    rw [Bool.and_eq_true] at hc
    have n1 : Near 1 u v := ⟨hn.val, abs_le.2 ⟨by have := hge _ _ hn.val hc.1; rw [pow_one]; linarith, by have := hle _ _ hn.val hc.2; rw [pow_one]; linarith⟩⟩
    exact point_near ho hd n1 (by omega) (by omega) (by omega)
  unfold intersectSphereSegment
  simp only
  rw [g, z, tg, tl]
  by_cases h1 : Tol.isGreater (2 * dot (vsub sg.target sg.source) (vsub sg.source s.origin) * (2 * dot (vsub sg.target sg.source) (vsub sg.source s.origin)) -
      4 * dot (vsub sg.target sg.source) (vsub sg.target sg.source) * (dot (vsub sg.source s.origin) (vsub sg.source s.origin) - s.radius * s.radius)) 0 e = true
  · obtain ⟨t1, t2⟩ := sphere_params_near ha hbb hD (h _ _ hD.val h1) hq (by omega) (by omega)
    rw [if_pos h1, if_pos h1, t1.greaterEq0 hb e', t2.greaterEq0 hb e', t1.lessEq1 hb e', t2.lessEq1 hb e']
    split_ifs with c1 c2 c3 c4 c5 c6 <;> first
      | exact ⟨.some (pt t1 (by assumption)), .some (pt t2 (by assumption))⟩
      | exact ⟨.some (pt t1 (by assumption)), .none⟩
      | exact ⟨.none, .some (pt t2 (by assumption))⟩
      | exact ⟨.none, .none⟩
      | simp_all
  · rw [if_neg h1, if_neg h1]
    split_ifs with c1 c2
    · exact ⟨.some (pt t c2), .none⟩
    · exact ⟨.none, .none⟩
    · exact ⟨.none, .none⟩
end Ieee
open Ieee

section
variable {F : IeeeFormat} [Tol (Ieee F)]

theorem line_lower {d : Vec (Fl F.toFloatFormat) 3} {r η : ℝ} (hp : 11 ≤ F.prec) (hr : 0 < r)
    (hsm : ∀ k, F.emin = some k → 2 * (2 : ℝ) ^ k ≤ ((2 : ℝ)⁻¹ ^ F.prec) ^ 2 ∧ 2 * (2 : ℝ) ^ k ≤ ((2 : ℝ)⁻¹ ^ F.prec) ^ 2 * r ^ 2)
    (hη : |Spec.norm (fun i => (d i).1) - 1| ≤ η) (hη1 : η ≤ 1 / 32) : 1 ≤ 2 * (dot d d).1 * 2 ^ 2 := by
  have h2 : |Spec.norm (fun i => (d i).1) - 1| ≤ 1 / 32 := hη.trans hη1
  obtain ⟨ht, -⟩ := unit_small (F := F.toFloatFormat) h2 hr hsm
  have := dot_self_lower d (le_trans (by norm_num) (Nat.pow_le_pow_right (by norm_num) hp)) ht (by have := (abs_le.1 h2).1; linarith)
  linarith

/-- **C153** Sphere and line in IEEE arithmetic, with overflow: for coordinates and a radius up to `2 ^ k`, `2 k + 14 < emax`, nothing overflows, the
reported points are finite, and C107 holds. -/
theorem C153_line_partial (k : ℕ) (hk : 2 * k + 14 < F.emax) (s : Sphere (Ieee F)) (ln : Line (Ieee F) 3) (e : Ieee F) (hp : 11 ≤ F.prec) {r R η τ : ℝ}
    (hs : ∀ i, AtMost k (s.origin i)) (hrk : AtMost k s.radius) (ho : ∀ i, AtMost k (ln.origin i)) (hd : ∀ i, ∃ x, (ln.direction i).val? = some x)
    (hrv : s.radius.val? = some r) (hr : 0 < r)
    (hsm : ∀ k, F.emin = some k → 2 * (2 : ℝ) ^ k ≤ ((2 : ℝ)⁻¹ ^ F.prec) ^ 2 ∧ 2 * (2 : ℝ) ^ k ≤ ((2 : ℝ)⁻¹ ^ F.prec) ^ 2 * r ^ 2)
    (hη : |Spec.norm (reals ln.direction) - 1| ≤ η) (hη1 : η ≤ 1 / 32) (hR : R = Spec.dist (reals ln.origin) (reals s.origin) + r) (hτ : 0 ≤ τ)
    (hb : ZeroBlind e) (hg : ∀ (z : Ieee F) x, z.val? = some x → Tol.isGreater z 0 e = true → 0 ≤ x)
    (hg' : ∀ (z : Ieee F) x, z.val? = some x → τ < x → Tol.isGreater z 0 e = true)
    (hz : ∀ (z : Ieee F) x, z.val? = some x → Tol.isZero z e = true → |x| ≤ τ) :
    (∀ y, ((intersectSphereLine s ln e).first = some y ∨ (intersectSphereLine s ln e).second = some y) → ∀ i, ∃ x, (y i).val? = some x) ∧
    (∀ p q, intersectSphereLine s ln e = ⟨some p, some q⟩ → ∀ y, (y = p ∨ y = q) →
      ∃ x ∈ Spec.line (reals ln.origin) (reals ln.direction),
        r * |Spec.dist x (reals s.origin) - r| ≤ 110 * ((2 : ℝ)⁻¹ ^ F.prec * R ^ 2) ∧
        ∀ i, |reals y i - x i| ≤ (2 : ℝ)⁻¹ ^ F.prec * |x i| + 5 * ((2 : ℝ)⁻¹ ^ F.prec * R)) ∧
    (∀ p, intersectSphereLine s ln e = ⟨some p, none⟩ →
      ∃ x ∈ Spec.line (reals ln.origin) (reals ln.direction),
        r * |Spec.dist x (reals s.origin) - r|
          ≤ 42 * ((2 : ℝ)⁻¹ ^ F.prec * R ^ 2) + ((9 / 2 * η + 24 * (2 : ℝ)⁻¹ ^ F.prec) * R) ^ 2 + 27 / 100 * τ ∧
        ∀ i, |reals p i - x i| ≤ (2 : ℝ)⁻¹ ^ F.prec * |x i| + 5 * ((2 : ℝ)⁻¹ ^ F.prec * R)) ∧
    ∃ δ, Spec.IsDistance {reals s.origin} (Spec.line (reals ln.origin) (reals ln.direction)) δ ∧
      (τ + 177 * ((2 : ℝ)⁻¹ ^ F.prec * R ^ 2) < 15 / 4 * (r ^ 2 - δ ^ 2) →
        ∃ p q s₁ s₂, intersectSphereLine s ln e = ⟨some p, some q⟩ ∧ s₂ < s₁ ∧
          Spec.sphere (reals s.origin) r ∩ Spec.line (reals ln.origin) (reals ln.direction)
            = {Spec.pointAt (reals ln.origin) (reals ln.direction) s₁, Spec.pointAt (reals ln.origin) (reals ln.direction) s₂} ∧
          ∀ y t, (y = p ∧ t = s₁ ∨ y = q ∧ t = s₂) → ∀ i, |reals y i - Spec.pointAt (reals ln.origin) (reals ln.direction) t i|
            ≤ (2 : ℝ)⁻¹ ^ F.prec * |Spec.pointAt (reals ln.origin) (reals ln.direction) t i|
              + 81 * ((2 : ℝ)⁻¹ ^ F.prec * (R ^ 2 / Real.sqrt (r ^ 2 - δ ^ 2)))) ∧
      (τ + 177 * ((2 : ℝ)⁻¹ ^ F.prec * R ^ 2) < 15 / 4 * (δ ^ 2 - r ^ 2) → intersectSphereLine s ln e = ⟨none, none⟩) := by
  have ns : NearVec k s.origin (flOf s.origin) := fun i => (hs i).near
  have no : NearVec k ln.origin (flOf ln.origin) := fun i => (ho i).near
  have hd2 : Spec.norm (reals ln.direction) ≤ 2 := by have := (abs_le.1 hη).2; linarith
  have nd : NearVec 1 ln.direction (flOf ln.direction) := fun i => (near_direction hd hd2 i).near
  have nr := hrk.near
  have er : (toFl s.radius).1 = r := Option.some.inj (nr.val.symm.trans hrv)
  have hη' := hη
  have hR' := hR
  rw [nd.reals] at hη'
  rw [no.reals, ns.reals, ← er] at hR'
  have same := line_hits (s' := ⟨flOf s.origin, toFl s.radius⟩) (ln' := ⟨flOf ln.origin, flOf ln.direction⟩) (0 : Fl F.toFloatFormat) hb hg ns nr no nd
    (line_lower hp hr hsm hη' hη1) (by norm_num) hk
  let tol : Tol (Fl F.toFloatFormat) := tolAs e
  obtain ⟨g1, g2⟩ := tolAs_greater hτ hg hg' (0 : Fl F.toFloatFormat)
  have hsm' := hsm
  rw [← er] at hsm'
  obtain ⟨c1, c2, δ, c3, c4, c5⟩ := C107_line (F := F.toFloatFormat) ⟨flOf s.origin, toFl s.radius⟩ ⟨flOf ln.origin, flOf ln.direction⟩ 0 hp (by rw [er]; exact hr) hsm' hη' hη1 hR' hτ g1 g2
    (tolAs_zero hz 0)
  rw [← no.reals, ← nd.reals, ← ns.reals] at c3 c4
  simp only [← no.reals, ← nd.reals, ← ns.reals, er] at c1 c2 c4 c5
  generalize @intersectSphereLine _ _ _ _ _ _ _ _ _ _ (tolAs e) _ _ (0 : Fl F.toFloatFormat) = v at same c1 c2 c4 c5
  generalize intersectSphereLine s ln e = u at same ⊢
  obtain ⟨f1, f2⟩ := same
  obtain ⟨v1, v2⟩ := v
  obtain ⟨u1, u2⟩ := u
  have a1 := rel_some f1
  have a2 := rel_some f2
  simp only [SphereIntersection.mk.injEq] at *
  refine ⟨?_, ?_, ?_, δ, c3, ?_, ?_⟩
  · rintro y (h | h) i
    · obtain ⟨p', -, hp'⟩ := a1.1 y h; exact ⟨_, (hp' i).val⟩
    · obtain ⟨p', -, hp'⟩ := a2.1 y h; exact ⟨_, (hp' i).val⟩
  · rintro p q ⟨h1, h2⟩ y hy
    obtain ⟨p', e1, n1⟩ := a1.1 p h1
    obtain ⟨q', e2, n2⟩ := a2.1 q h2
    rcases hy with rfl | rfl
    · rw [n1.reals]; exact c1 p' q' ⟨e1, e2⟩ p' (.inl rfl)
    · rw [n2.reals]; exact c1 p' q' ⟨e1, e2⟩ q' (.inr rfl)
  · rintro p ⟨h1, h2⟩
    obtain ⟨p', e1, n1⟩ := a1.1 p h1
    rw [n1.reals]; exact c2 p' ⟨e1, a2.2.2.1 h2⟩
  · intro h
    obtain ⟨p', q', s₁, s₂, ⟨e1, e2⟩, k2, k3, k4⟩ := c4 h
    obtain ⟨p, h1, n1⟩ := a1.2.1 p' e1
    obtain ⟨q, h2, n2⟩ := a2.2.1 q' e2
    refine ⟨p, q, s₁, s₂, ⟨h1, h2⟩, k2, k3, ?_⟩
    rintro y t (⟨rfl, rfl⟩ | ⟨rfl, rfl⟩)
    · rw [n1.reals]; exact k4 p' t (.inl ⟨rfl, rfl⟩)
    · rw [n2.reals]; exact k4 q' t (.inr ⟨rfl, rfl⟩)
  · intro h
    exact ⟨a1.2.2.2 (c5 h).1, a2.2.2.2 (c5 h).2⟩

/-- **C153** Sphere and ray, likewise. -/
theorem C153_ray_partial (k : ℕ) (hk : 2 * k + 14 < F.emax) (s : Sphere (Ieee F)) (ry : Ray (Ieee F) 3) (e : Ieee F) (hp : 11 ≤ F.prec) {r R η τ ρ : ℝ}
    (hs : ∀ i, AtMost k (s.origin i)) (hrk : AtMost k s.radius) (ho : ∀ i, AtMost k (ry.origin i)) (hd : ∀ i, ∃ x, (ry.direction i).val? = some x)
    (hrv : s.radius.val? = some r) (hr : 0 < r)
    (hsm : ∀ k, F.emin = some k → 2 * (2 : ℝ) ^ k ≤ ((2 : ℝ)⁻¹ ^ F.prec) ^ 2 ∧ 2 * (2 : ℝ) ^ k ≤ ((2 : ℝ)⁻¹ ^ F.prec) ^ 2 * r ^ 2)
    (hη : |Spec.norm (reals ry.direction) - 1| ≤ η) (hη1 : η ≤ 1 / 32) (hR : R = Spec.dist (reals ry.origin) (reals s.origin) + r) (hτ : 0 ≤ τ)
    (hb : ZeroBlind e) (hg : ∀ (z : Ieee F) x, z.val? = some x → Tol.isGreater z 0 e = true → 0 ≤ x)
    (hg' : ∀ (z : Ieee F) x, z.val? = some x → τ < x → Tol.isGreater z 0 e = true)
    (hz : ∀ (z : Ieee F) x, z.val? = some x → Tol.isZero z e = true → |x| ≤ τ)
    (hq : ∀ (z : Ieee F) x, z.val? = some x → Tol.isGreaterEq z 0 e = true → -ρ ≤ x)
    (hq' : ∀ (z : Ieee F) x, z.val? = some x → 0 ≤ x → Tol.isGreaterEq z 0 e = true) :
    (∀ y, ((intersectSphereRay s ry e).first = some y ∨ (intersectSphereRay s ry e).second = some y) →
      (∀ i, ∃ x, (y i).val? = some x) ∧
      ∃ x ∈ Spec.rayUpTo ρ (reals ry.origin) (reals ry.direction),
        r * |Spec.dist x (reals s.origin) - r|
          ≤ 110 * ((2 : ℝ)⁻¹ ^ F.prec * R ^ 2) + ((9 / 2 * η + 24 * (2 : ℝ)⁻¹ ^ F.prec) * R) ^ 2 + 27 / 100 * τ ∧
        ∀ i, |reals y i - x i| ≤ (2 : ℝ)⁻¹ ^ F.prec * |x i| + 5 * ((2 : ℝ)⁻¹ ^ F.prec * R)) ∧
    ∃ δ, Spec.IsDistance {reals s.origin} (Spec.line (reals ry.origin) (reals ry.direction)) δ ∧
      (τ + 177 * ((2 : ℝ)⁻¹ ^ F.prec * R ^ 2) < 15 / 4 * (r ^ 2 - δ ^ 2) →
        ∃ s₁ s₂, s₂ < s₁ ∧
          Spec.sphere (reals s.origin) r ∩ Spec.line (reals ry.origin) (reals ry.direction)
            = {Spec.pointAt (reals ry.origin) (reals ry.direction) s₁, Spec.pointAt (reals ry.origin) (reals ry.direction) s₂} ∧
          ∀ o t, (o = (intersectSphereRay s ry e).first ∧ t = s₁ ∨ o = (intersectSphereRay s ry e).second ∧ t = s₂) →
            (∀ y, o = some y → ∀ i, |reals y i - Spec.pointAt (reals ry.origin) (reals ry.direction) t i|
              ≤ (2 : ℝ)⁻¹ ^ F.prec * |Spec.pointAt (reals ry.origin) (reals ry.direction) t i|
                + 81 * ((2 : ℝ)⁻¹ ^ F.prec * (R ^ 2 / Real.sqrt (r ^ 2 - δ ^ 2)))) ∧
            (78 * ((2 : ℝ)⁻¹ ^ F.prec * (R ^ 2 / Real.sqrt (r ^ 2 - δ ^ 2))) ≤ t → o.isSome) ∧
            (t + 78 * ((2 : ℝ)⁻¹ ^ F.prec * (R ^ 2 / Real.sqrt (r ^ 2 - δ ^ 2))) < -ρ → o = none)) ∧
      (τ + 177 * ((2 : ℝ)⁻¹ ^ F.prec * R ^ 2) < 15 / 4 * (δ ^ 2 - r ^ 2) → intersectSphereRay s ry e = ⟨none, none⟩) := by
  have ns : NearVec k s.origin (flOf s.origin) := fun i => (hs i).near
  have no : NearVec k ry.origin (flOf ry.origin) := fun i => (ho i).near
  have hd2 : Spec.norm (reals ry.direction) ≤ 2 := by have := (abs_le.1 hη).2; linarith
  have nd : NearVec 1 ry.direction (flOf ry.direction) := fun i => (near_direction hd hd2 i).near
  have nr := hrk.near
  have er : (toFl s.radius).1 = r := Option.some.inj (nr.val.symm.trans hrv)
  have hη' := hη
  have hR' := hR
  rw [nd.reals] at hη'
  rw [no.reals, ns.reals, ← er] at hR'
  have same := ray_hits (s' := ⟨flOf s.origin, toFl s.radius⟩) (ry' := ⟨flOf ry.origin, flOf ry.direction⟩) (0 : Fl F.toFloatFormat) hb hg ns nr no nd
    (line_lower hp hr hsm hη' hη1) (by norm_num) hk
  let tol : Tol (Fl F.toFloatFormat) := tolAs e
  obtain ⟨g1, g2⟩ := tolAs_greater hτ hg hg' (0 : Fl F.toFloatFormat)
  obtain ⟨q1, q2⟩ := tolAs_greaterEq hq hq' (0 : Fl F.toFloatFormat)
  have hsm' := hsm
  rw [← er] at hsm'
  obtain ⟨c1, δ, c3, c4, c5⟩ := C107_ray (F := F.toFloatFormat) ⟨flOf s.origin, toFl s.radius⟩ ⟨flOf ry.origin, flOf ry.direction⟩ 0 hp (by rw [er]; exact hr) hsm' hη' hη1 hR' hτ g1 g2
    (tolAs_zero hz 0) q1 q2
  simp only [← no.reals, ← nd.reals, ← ns.reals, er] at c1 c3 c4 c5
  generalize @intersectSphereRay _ _ _ _ _ _ _ _ _ _ (tolAs e) _ _ (0 : Fl F.toFloatFormat) = v at same c1 c4 c5
  generalize intersectSphereRay s ry e = u at same ⊢
  obtain ⟨f1, f2⟩ := same
  obtain ⟨v1, v2⟩ := v
  obtain ⟨u1, u2⟩ := u
  have a1 := rel_some f1
  have a2 := rel_some f2
  simp only [SphereIntersection.mk.injEq] at *
  refine ⟨?_, δ, c3, ?_, ?_⟩
  · rintro y (h | h)
    · obtain ⟨p', e1, n1⟩ := a1.1 y h
      refine ⟨fun i => ⟨_, (n1 i).val⟩, ?_⟩
      rw [n1.reals]; exact c1 p' (.inl e1)
    · obtain ⟨p', e1, n1⟩ := a2.1 y h
      refine ⟨fun i => ⟨_, (n1 i).val⟩, ?_⟩
      rw [n1.reals]; exact c1 p' (.inr e1)
  · intro h
    obtain ⟨s₁, s₂, k2, k3, k4⟩ := c4 h
    refine ⟨s₁, s₂, k2, k3, fun o t hot => ?_⟩
    obtain ⟨o', hr', hot'⟩ : ∃ o', Option.Rel (NearVec (k + 13)) o o' ∧ (o' = v1 ∧ t = s₁ ∨ o' = v2 ∧ t = s₂) := by
      rcases hot with ⟨rfl, rfl⟩ | ⟨rfl, rfl⟩
      · exact ⟨v1, f1, .inl ⟨rfl, rfl⟩⟩
      · exact ⟨v2, f2, .inr ⟨rfl, rfl⟩⟩
    obtain ⟨m1, m2, m3⟩ := k4 o' t hot'
    obtain ⟨r1, r2, r3⟩ := rel_some hr'
    refine ⟨fun y hy => ?_, fun ht => ?_, fun ht => r3.2 (m3 ht)⟩
    · obtain ⟨y', e1, n1⟩ := r1 y hy
      rw [n1.reals]; exact m1 y' e1
    · obtain ⟨y', e1⟩ := Option.isSome_iff_exists.1 (m2 ht)
      obtain ⟨y, e2, -⟩ := r2 y' e1
      rw [e2]; rfl
  · intro h
    exact ⟨a1.2.2.2 (c5 h).1, a2.2.2.2 (c5 h).2⟩

theorem segment_lower {a L : ℝ} {q : ℕ} (hp : 11 ≤ F.prec) (h : |a - L ^ 2| ≤ 902 / 100 * (F.unit * L ^ 2)) (hq : 1 ≤ L ^ 2 * 2 ^ q) : 1 ≤ 2 * a * 2 ^ q := by
  have hu : F.unit ≤ 1 / 2048 := by
    show (2 : ℝ)⁻¹ ^ F.prec ≤ _
    refine (pow_le_pow_of_le_one (by norm_num) (by norm_num) hp).trans (by norm_num)
  have h1 := (abs_le.1 h).1
  have h2 := mul_le_mul_of_nonneg_right hu (sq_nonneg L)
  have h3 := sq_nonneg L
  exact hq.trans (mul_le_mul_of_nonneg_right (by linarith) (by positivity))

/-- **C153** Sphere and segment, likewise: for coordinates and a radius up to `2 ^ k`, `4 k + 14 < emax`. -/
theorem C153_segment_partial (k q : ℕ) (hk : 4 * k + 14 < F.emax) (hkq : 2 * k + q + 8 < F.emax) (s : Sphere (Ieee F)) (g : Segment (Ieee F) 3) (e : Ieee F)
    (hp : 11 ≤ F.prec) {r R L m τ ρ : ℝ} (hs : ∀ i, AtMost k (s.origin i)) (hrk : AtMost k s.radius)
    (hf : ∀ i, AtMost k (g.source i) ∧ AtMost k (g.target i)) (hrv : s.radius.val? = some r) (hr : 0 < r)
    (hL : L = Spec.dist (reals g.target) (reals g.source)) (hm0 : 0 < m) (hm1 : m ≤ 1) (hmL : m ≤ L) (hmr : m ≤ r) (hqL : 1 ≤ L ^ 2 * 2 ^ q)
    (hsm : ∀ k, F.emin = some k → (2 : ℝ) ^ k ≤ ((2 : ℝ)⁻¹ ^ F.prec) ^ 2 * m ^ 4 ∧ L * (2 : ℝ) ^ k ≤ ((2 : ℝ)⁻¹ ^ F.prec) ^ 2 * r)
    (hR : R = Spec.dist (reals g.source) (reals s.origin) + r) (hτ : 0 ≤ τ) (hρ : ρ ≤ 1)
    (hb : ZeroBlind e) (hg : ∀ (z : Ieee F) x, z.val? = some x → Tol.isGreater z 0 e = true → 0 ≤ x)
    (hg' : ∀ (z : Ieee F) x, z.val? = some x → τ < x → Tol.isGreater z 0 e = true)
    (hz : ∀ (z : Ieee F) x, z.val? = some x → Tol.isZero z e = true → |x| ≤ τ)
    (hq : ∀ (z : Ieee F) x, z.val? = some x → Tol.isGreaterEq z 0 e = true → -ρ ≤ x)
    (hq' : ∀ (z : Ieee F) x, z.val? = some x → 0 ≤ x → Tol.isGreaterEq z 0 e = true)
    (hl : ∀ (z : Ieee F) x, z.val? = some x → Tol.isLessEq z 1 e = true → x ≤ 1 + ρ)
    (hl' : ∀ (z : Ieee F) x, z.val? = some x → x ≤ 1 → Tol.isLessEq z 1 e = true) :
    (∀ y, ((intersectSphereSegment s g e).first = some y ∨ (intersectSphereSegment s g e).second = some y) → ∀ i, ∃ x, (y i).val? = some x) ∧
    ∃ δ, Spec.IsDistance {reals s.origin} (Spec.line (reals g.source) (fun i => reals g.target i - reals g.source i)) δ ∧
      (τ + 166 * ((2 : ℝ)⁻¹ ^ F.prec * (L * R) ^ 2) < 4 * L ^ 2 * (r ^ 2 - δ ^ 2) →
        ∃ s₁ s₂, s₂ < s₁ ∧
          Spec.sphere (reals s.origin) r ∩ Spec.line (reals g.source) (fun i => reals g.target i - reals g.source i)
            = {Spec.pointAt (reals g.source) (fun i => reals g.target i - reals g.source i) s₁,
              Spec.pointAt (reals g.source) (fun i => reals g.target i - reals g.source i) s₂} ∧
          ∀ o t, (o = (intersectSphereSegment s g e).first ∧ t = s₁ ∨ o = (intersectSphereSegment s g e).second ∧ t = s₂) →
            (∀ y, o = some y → ∀ i, |reals y i - Spec.pointAt (reals g.source) (fun i => reals g.target i - reals g.source i) t i|
              ≤ (2 : ℝ)⁻¹ ^ F.prec * |Spec.pointAt (reals g.source) (fun i => reals g.target i - reals g.source i) t i|
                + 81 * ((2 : ℝ)⁻¹ ^ F.prec * (R ^ 2 / Real.sqrt (r ^ 2 - δ ^ 2)))) ∧
            (75 * ((2 : ℝ)⁻¹ ^ F.prec * (R ^ 2 / Real.sqrt (r ^ 2 - δ ^ 2))) / L ≤ t →
              t + 75 * ((2 : ℝ)⁻¹ ^ F.prec * (R ^ 2 / Real.sqrt (r ^ 2 - δ ^ 2))) / L ≤ 1 → o.isSome) ∧
            (t + 75 * ((2 : ℝ)⁻¹ ^ F.prec * (R ^ 2 / Real.sqrt (r ^ 2 - δ ^ 2))) / L < -ρ ∨
              1 + ρ + 75 * ((2 : ℝ)⁻¹ ^ F.prec * (R ^ 2 / Real.sqrt (r ^ 2 - δ ^ 2))) / L < t → o = none)) ∧
      (τ + 166 * ((2 : ℝ)⁻¹ ^ F.prec * (L * R) ^ 2) < 4 * L ^ 2 * (δ ^ 2 - r ^ 2) → intersectSphereSegment s g e = ⟨none, none⟩) := by
  have ns : NearVec k s.origin (flOf s.origin) := fun i => (hs i).near
  have no : NearVec k g.source (flOf g.source) := fun i => (hf i).1.near
  have nt : NearVec k g.target (flOf g.target) := fun i => (hf i).2.near
  have nr := hrk.near
  have er : (toFl s.radius).1 = r := Option.some.inj (nr.val.symm.trans hrv)
  have hL' := hL
  have hR' := hR
  rw [nt.reals, no.reals] at hL'
  rw [no.reals, ns.reals, ← er] at hR'
  have hu2 : 0 ≤ F.unit ^ 2 := by positivity
  have hT : F.tiny ≤ F.unit ^ 2 * m ^ 4 := tiny_le_of (by positivity) fun k hk => (hsm k hk).1
  have hm2 : m ^ 2 ≤ 1 := pow_le_one₀ hm0.le hm1
  have hm42 : m ^ 4 ≤ m ^ 2 := by
    have := mul_le_mul_of_nonneg_left hm2 (sq_nonneg m)
    have e : m ^ 4 = m ^ 2 * m ^ 2 := by ring
    rw [e]; linarith
  have up : ∀ {x : ℝ}, m ^ 4 ≤ x → F.tiny ≤ F.unit ^ 2 * x := fun h => hT.trans (mul_le_mul_of_nonneg_left h hu2)
  have hL0 : 0 < L := by linarith
  have hW0 : 0 ≤ Spec.dist (fun i => (flOf g.source i).1) (fun i => (flOf s.origin i).1) := Real.sqrt_nonneg _
  have hrR : r ≤ R := by rw [hR', er]; linarith
  have mLr : m ^ 2 ≤ L * R := by rw [sq]; exact mul_le_mul hmL (hmr.trans hrR) hm0.le hL0.le
  have hco := (sphere_coeffs (flOf g.source) (flOf s.origin) (vsub (flOf g.target) (flOf g.source)) _ (fun i => Fl.sub_rel _ _) (toFl s.radius) hp
    (by have := up (x := 1) (hm42.trans hm2); rw [← sq]; linarith) (L := L) hL' rfl (by rw [er]; exact hr.le) hR'
    (up (hm42.trans (pow_le_pow_left₀ hm0.le hmL 2))) (up (hm42.trans mLr)) (up (hm42.trans (pow_le_pow_left₀ hm0.le (hmr.trans hrR) 2)))).1
  have same := segment_hits (s' := ⟨flOf s.origin, toFl s.radius⟩) (sg' := ⟨flOf g.source, flOf g.target⟩) (0 : Fl F.toFloatFormat) hb hg hq hl hρ ns nr no nt
    (segment_lower hp hco hqL) hk hkq
  let tol : Tol (Fl F.toFloatFormat) := tolAs e
  obtain ⟨g1, g2⟩ := tolAs_greater hτ hg hg' (0 : Fl F.toFloatFormat)
  obtain ⟨q1, q2⟩ := tolAs_greaterEq hq hq' (0 : Fl F.toFloatFormat)
  obtain ⟨l1, l2⟩ := tolAs_lessEq hl hl' (0 : Fl F.toFloatFormat)
  have hsm' := hsm
  rw [← er] at hsm' hmr
  obtain ⟨δ, c3, c4, c5⟩ := C107_segment (F := F.toFloatFormat) ⟨flOf s.origin, toFl s.radius⟩ ⟨flOf g.source, flOf g.target⟩ 0 hp (by rw [er]; exact hr) hL' hm0 hm1 hmL hmr hsm' hR' hτ g1 g2
    (tolAs_zero hz 0) q1 q2 l1 l2
  have ed : (fun i => (flOf g.target i).1 - (flOf g.source i).1) = fun i => reals g.target i - reals g.source i := by rw [nt.reals, no.reals]
  simp only [ed, ← no.reals, ← ns.reals, er] at c3 c4 c5
  generalize @intersectSphereSegment _ _ _ _ _ _ _ _ _ _ _ (tolAs e) _ _ (0 : Fl F.toFloatFormat) = v at same c4 c5
  generalize intersectSphereSegment s g e = u at same ⊢
  obtain ⟨f1, f2⟩ := same
  obtain ⟨v1, v2⟩ := v
  obtain ⟨u1, u2⟩ := u
  have a1 := rel_some f1
  have a2 := rel_some f2
  simp only [SphereIntersection.mk.injEq] at *
  refine ⟨?_, δ, c3, ?_, ?_⟩
  · rintro y (h | h) i
    · obtain ⟨p', e1, n1⟩ := a1.1 y h
      exact ⟨_, (n1 i).val⟩
    · obtain ⟨p', e1, n1⟩ := a2.1 y h
      exact ⟨_, (n1 i).val⟩
  · intro h
    obtain ⟨s₁, s₂, k2, k3, k4⟩ := c4 h
    refine ⟨s₁, s₂, k2, k3, fun o t hot => ?_⟩
    obtain ⟨o', hr', hot'⟩ : ∃ o', Option.Rel (NearVec (k + 3)) o o' ∧ (o' = v1 ∧ t = s₁ ∨ o' = v2 ∧ t = s₂) := by
      rcases hot with ⟨rfl, rfl⟩ | ⟨rfl, rfl⟩
      · exact ⟨v1, f1, .inl ⟨rfl, rfl⟩⟩
      · exact ⟨v2, f2, .inr ⟨rfl, rfl⟩⟩
    obtain ⟨m1, m2, m3⟩ := k4 o' t hot'
    obtain ⟨r1, r2, r3⟩ := rel_some hr'
    refine ⟨fun y hy => ?_, fun ht ht' => ?_, fun ht => r3.2 (m3 ht)⟩
    · obtain ⟨y', e1, n1⟩ := r1 y hy
      rw [n1.reals]; exact m1 y' e1
    · obtain ⟨y', e1⟩ := Option.isSome_iff_exists.1 (m2 ht ht')
      obtain ⟨y, e2, -⟩ := r2 y' e1
      rw [e2]; rfl
  · intro h
    exact ⟨a1.2.2.2 (c5 h).1, a2.2.2.2 (c5 h).2⟩

/-- **C153** Refutation without a bound on the coordinates: let `emax ≤ 2 n`. The line through the origin along the first axis, stored with the origin
`(2ⁿ, 0, 0)`, passes through the centre of the sphere of radius `2ⁿ` around the origin. Nothing is reported, because `∞ - ∞` is NaN. The same holds
for the ray along the first axis from `(-2ⁿ, 0, 0)` and for the segment from there to `(2ⁿ, 0, 0)`. -/
theorem C153_counterexample (e : Ieee F) (n : ℕ) (hn : n < F.emax) (hn2 : F.emax ≤ 2 * n) (h1 : Tol.isGreater (nan : Ieee F) 0 e = false)
    (h2 : Tol.isZero (nan : Ieee F) e = false) :
    ∃ (s : Sphere (Ieee F)) (a b d : Vec (Ieee F) 3), s.radius.val? = some (2 ^ n) ∧ reals s.origin = 0 ∧ (∀ i, AtMost 0 (s.origin i)) ∧
      reals a = ![-2 ^ n, 0, 0] ∧ reals b = ![2 ^ n, 0, 0] ∧ reals d = ![1, 0, 0] ∧ (∀ i, AtMost n (a i) ∧ AtMost n (b i) ∧ AtMost 0 (d i)) ∧
      Spec.dist (reals a) (reals s.origin) = 2 ^ n ∧ Spec.dist (reals b) (reals s.origin) = 2 ^ n ∧
      intersectSphereLine s ⟨b, d⟩ e = ⟨none, none⟩ ∧ intersectSphereRay s ⟨a, d⟩ e = ⟨none, none⟩ ∧ intersectSphereSegment s ⟨a, b⟩ e = ⟨none, none⟩ := by
  set m := pow2 F n hn with hm
  have hv : m.val? = some ((2 : ℝ) ^ n) := pow2_val _ _
  have hv' : (-m).val? = some (-(2 : ℝ) ^ n) := neg_val hv
  have h0 : (0 : Ieee F).val? = some 0 := rfl
  have S0 : Simple F 0 := .inl rfl
  have hM : (0 : ℝ) < 2 ^ n := by positivity
  have mm : ∀ w : Ieee F, w.val? = some ((2 : ℝ) ^ n) ∨ w.val? = some (-(2 : ℝ) ^ n) → w * w = inf false := by
    rintro w (hw | hw)
    · rw [mul_over hw hw hn2 (.inl (by rw [← pow_add]; congr 1; omega)), decide_eq_false (not_lt.2 (by positivity))]
    · rw [mul_over hw hw hn2 (.inl (by rw [neg_mul_neg, ← pow_add]; congr 1; omega)), decide_eq_false (not_lt.2 (by rw [neg_mul_neg]; positivity))]
  have key : ∀ x : Ieee F, x - nan = nan := by intro x; cases x <;> rfl
  have kmul : ∀ x : Ieee F, x * nan = nan := by intro x; cases x <;> rfl
  have inf_add : ∀ {x : Ieee F} {r : ℝ}, x.val? = some r → (inf false : Ieee F) + x = inf false := by
    intro x r hx; cases x <;> simp only [val?, reduceCtorEq] at hx <;> rfl
  have add_inf : ∀ {x : Ieee F} {r : ℝ}, x.val? = some r → x + (inf false : Ieee F) = inf false := by
    intro x r hx; cases x <;> simp only [val?, reduceCtorEq] at hx <;> rfl
  have hc : ∀ w : Ieee F, w.val? = some ((2 : ℝ) ^ n) ∨ w.val? = some (-(2 : ℝ) ^ n) →
      dot (vsub ![w, 0, 0] ![0, 0, 0]) (vsub ![w, 0, 0] ![0, 0, 0]) - m * m = nan := by
    intro w hw
    have hw' : (w - 0).val? = some ((2 : ℝ) ^ n) ∨ (w - 0).val? = some (-(2 : ℝ) ^ n) := by
      rcases hw with hw | hw
      · exact .inl (sub_simple hw h0 (sub_zero _) (.inr ⟨n, hn, .inl rfl⟩))
      · exact .inr (sub_simple hw h0 (sub_zero _) (.inr ⟨n, hn, .inr rfl⟩))
    have e0 : ((0 : Ieee F) - 0).val? = some 0 := sub_simple h0 h0 (sub_zero _) S0
    have e1 : (((0 : Ieee F) - 0) * (0 - 0)).val? = some 0 := mul_simple e0 e0 (mul_zero _) S0
    have ed : dot (vsub ![w, 0, 0] ![0, 0, 0]) (vsub ![w, 0, 0] ![0, 0, 0]) = 0 + (w - 0) * (w - 0) + (0 - 0) * (0 - 0) + (0 - 0) * (0 - 0) := by
      unfold dot
      rw [Fin.foldl_succ_last, Fin.foldl_succ_last, Fin.foldl_succ_last, Fin.foldl_zero]
      rfl
    rw [ed, mm _ hw', mm _ (.inl hv), add_inf h0, inf_add e1, inf_add e1]
    rfl
  have rb : reals ![m, 0, 0] = ![2 ^ n, 0, 0] := by funext i; fin_cases i <;> rfl
  have ra : reals ![-m, 0, 0] = ![-2 ^ n, 0, 0] := by
    funext i; fin_cases i
    · show (-m).val?.getD 0 = _
      rw [hv']; rfl
    · rfl
    · rfl
  have ro : reals ![(0 : Ieee F), 0, 0] = 0 := by funext i; fin_cases i <;> rfl
  have zn : ∀ k : ℕ, AtMost k (0 : Ieee F) := fun k => ⟨0, rfl, by rw [abs_zero]; positivity⟩
  refine ⟨⟨![0, 0, 0], m⟩, ![-m, 0, 0], ![m, 0, 0], ![1, 0, 0], hv, ro, ?_, ra, rb, ?_, ?_, ?_, ?_, ?_, ?_, ?_⟩
  · intro i; fin_cases i <;> exact zn 0
  · funext i; fin_cases i <;> rfl
  · intro i; fin_cases i
    · exact ⟨⟨_, hv', by rw [abs_neg, abs_of_pos hM]⟩, ⟨_, hv, by rw [abs_of_pos hM]⟩, ⟨1, rfl, by norm_num⟩⟩
    · exact ⟨zn n, zn n, zn 0⟩
    · exact ⟨zn n, zn n, zn 0⟩
  · rw [ra, ro]; exact dist3 _ _ _ 0 0 0 _ hM.le (by ring)
  · rw [rb, ro]; exact dist3 _ _ _ 0 0 0 _ hM.le (by ring)
  · unfold intersectSphereLine
    simp only
    rw [hc m (.inl hv), kmul, key, h1, h2]; rfl
  · unfold intersectSphereRay
    simp only
    rw [hc (-m) (.inr hv'), kmul, key, h1, h2]; rfl
  · unfold intersectSphereSegment
    simp only
    rw [hc (-m) (.inr hv'), kmul, key, h1, h2]; rfl
end

/-! ### Non-vacuity -/
section Examples
open Ieee
attribute [local instance] tolIe

theorem of_dec {p : Prop} {i : Decidable p} (h : @decide p i = true) : p := of_decide_eq_true h

theorem blindIe : ZeroBlind (Tol.eps : Ieee double64) := ⟨fun _ => rfl, fun _ => rfl, fun _ => rfl, rfl⟩

theorem greaterIe : (∀ (z : Ieee double64) x, z.val? = some x → Tol.isGreater z 0 Tol.eps = true → 0 ≤ x) ∧
    ∀ (z : Ieee double64) x, z.val? = some x → 1 / 10 ^ 6 < x → Tol.isGreater z 0 Tol.eps = true := by
  refine ⟨fun z x hz h => ?_, fun z x hz h => dec_true ⟨x, 0, hz, rfl, by linarith⟩⟩
  obtain ⟨y, w, hy, hw, hlt⟩ := of_dec h
  cases hz.symm.trans hy
  cases hw
  change (0 : ℝ) + 1 / 10 ^ 6 < x at hlt
  have : (0 : ℝ) ≤ 1 / 10 ^ 6 := by norm_num
  linarith

theorem zeroIe (z : Ieee double64) (x : ℝ) (hz : z.val? = some x) (h : Tol.isZero z Tol.eps = true) : |x| ≤ 1 / 10 ^ 6 := by
  obtain ⟨y, hy, hlt⟩ := of_dec h
  cases hz.symm.trans hy
  exact hlt

theorem greaterEqIe : (∀ (z : Ieee double64) x, z.val? = some x → Tol.isGreaterEq z 0 Tol.eps = true → -(1 / 10 ^ 6) ≤ x) ∧
    ∀ (z : Ieee double64) x, z.val? = some x → 0 ≤ x → Tol.isGreaterEq z 0 Tol.eps = true := by
  have h0 : (0 : ℝ) ≤ 1 / 10 ^ 6 := by norm_num
  refine ⟨fun z x hz h => ?_, fun z x hz h => dec_true ⟨x, 0, hz, rfl, by linarith⟩⟩
  obtain ⟨y, w, hy, hw, hlt⟩ := of_dec h
  cases hz.symm.trans hy
  cases hw
  change (0 : ℝ) - 1 / 10 ^ 6 ≤ x at hlt
  linarith

theorem lessEqIe : (∀ (z : Ieee double64) x, z.val? = some x → Tol.isLessEq z 1 Tol.eps = true → x ≤ 1 + 1 / 10 ^ 6) ∧
    ∀ (z : Ieee double64) x, z.val? = some x → x ≤ 1 → Tol.isLessEq z 1 Tol.eps = true := by
  have h0 : (0 : ℝ) ≤ 1 / 10 ^ 6 := by norm_num
  refine ⟨fun z x hz h => ?_, fun z x hz h => dec_true ⟨x, 1, hz, rfl, by linarith⟩⟩
  obtain ⟨y, w, hy, hw, hlt⟩ := of_dec h
  cases hz.symm.trans hy
  cases hw
  exact hlt

/-- The sphere of radius 5 around (1, 2, 3), as doubles. -/
noncomputable def sphereIe : Sphere (Ieee double64) := ⟨q64 1 2 3, ie64 5⟩

theorem sphereIe_origin : reals sphereIe.origin = fun i => ((p64 1 2 3) i).1 := by
  rw [p64_vals]; exact (q64_vals 1 2 3 _ _ _).trans rfl

theorem sphereIe_R : (8 : ℝ) = Spec.dist (reals (q64 4 2 3)) (reals sphereIe.origin) + 5 := by
  rw [sphereIe_origin, q64_vals, p64_vals, dist3 _ _ _ _ _ _ 3 (by norm_num) (by norm_num)]; norm_num

theorem q423 : reals (q64 4 2 3) = fun i => ((p64 4 2 3) i).1 := by rw [p64_vals, q64_vals]
theorem q001 : reals (q64 0 0 1) = ![0, 0, 1] := by rw [q64_vals]; norm_num
theorem q001_norm : Spec.norm (reals (q64 0 0 1)) = 1 := by rw [q64_vals]; exact norm3 _ _ _ 1 (by norm_num) (by norm_num)

/-- Two points reported for a line of doubles, right to eleven digits. -/
example : ∃ p q, intersectSphereLine sphereIe ⟨q64 4 2 3, q64 0 0 1⟩ = ⟨some p, some q⟩ ∧ |reals p 2 - 7| ≤ 1 / 10 ^ 11 ∧ |reals q 2 + 1| ≤ 1 / 10 ^ 11 := by
  obtain ⟨-, -, -, δ, h1, h2, -⟩ := C153_line_partial (F := double64) 60 (by show 2 * 60 + 14 < 1024; norm_num) sphereIe ⟨q64 4 2 3, q64 0 0 1⟩ Tol.eps
    (by show 11 ≤ 53; norm_num) (r := 5) (R := 8) (η := 0) (τ := 1 / 10 ^ 6) (fun i => q64_most 60 (by norm_num) _ _ _ _ _ _ i) (ie64_most 60 (by norm_num) 5 (by norm_num))
    (fun i => q64_most 60 (by norm_num) _ _ _ _ _ _ i) (fun i => q64_fin _ _ _ _ _ _ i) (by show some ((5 : ℤ) : ℝ) = _; norm_num) (by norm_num)
    (sm64 (by norm_num)) (by rw [q001_norm]; norm_num) (by norm_num) sphereIe_R (by norm_num) blindIe greaterIe.1 greaterIe.2 zeroIe
  have hδ : δ = 3 := by
    refine sphere64_dist 4 (by norm_num) one_pos 3 δ (by norm_num) (by norm_num) ?_
    rw [← q423, ← q001, ← sphereIe_origin]; exact h1
  subst hδ
  have hu := unit64'
  change (2 : ℝ)⁻¹ ^ double64.prec ≤ _ at hu
  obtain ⟨p, q, s₁, s₂, k1, k2, k3, k4⟩ := h2 (by
    generalize (2 : ℝ)⁻¹ ^ double64.prec = μ at hu
    norm_num at hu ⊢; linarith)
  obtain ⟨e1, e2⟩ := sphere64_params one_pos k2 (by rw [← q423, ← q001, ← sphereIe_origin, show (fl64 5).1 = (5 : ℝ) from sphere64_radius]; exact k3)
  rw [mul_one] at e1 e2
  subst e1 e2
  refine ⟨p, q, k1, ?_, ?_⟩
  · have h := k4 p 4 (.inl ⟨rfl, rfl⟩) 2
    have e : Spec.pointAt (reals (q64 4 2 3)) (reals (q64 0 0 1)) 4 2 = 7 := by
      rw [q64_vals, q001]; simp [Spec.pointAt]; norm_num
    rw [show ((5 : ℝ) ^ 2 - 3 ^ 2) = 4 ^ 2 by norm_num, Real.sqrt_sq (by norm_num)] at h
    simp only [e] at h
    generalize (2 : ℝ)⁻¹ ^ double64.prec = μ at hu h
    norm_num at hu h ⊢; linarith
  · have h := k4 q (-4) (.inr ⟨rfl, rfl⟩) 2
    have e : Spec.pointAt (reals (q64 4 2 3)) (reals (q64 0 0 1)) (-4) 2 = -1 := by
      rw [q64_vals, q001]; simp [Spec.pointAt]; norm_num
    rw [show ((5 : ℝ) ^ 2 - 3 ^ 2) = 4 ^ 2 by norm_num, Real.sqrt_sq (by norm_num)] at h
    simp only [e] at h
    generalize (2 : ℝ)⁻¹ ^ double64.prec = μ at hu h
    norm_num at hu h ⊢; linarith

/-- The ray from a point inside the sphere: the point behind the origin is not reported, and the other is, with finite coordinates. -/
example : ∃ p, intersectSphereRay sphereIe ⟨q64 4 2 3, q64 0 0 1⟩ = ⟨some p, none⟩ ∧ (∀ i, ∃ x, (p i).val? = some x) ∧ |reals p 2 - 7| ≤ 1 / 10 ^ 11 := by
  obtain ⟨h0, δ, h1, h2, -⟩ := C153_ray_partial (F := double64) 60 (by show 2 * 60 + 14 < 1024; norm_num) sphereIe ⟨q64 4 2 3, q64 0 0 1⟩ Tol.eps
    (by show 11 ≤ 53; norm_num) (r := 5) (R := 8) (η := 0) (τ := 1 / 10 ^ 6) (ρ := 1 / 10 ^ 6) (fun i => q64_most 60 (by norm_num) _ _ _ _ _ _ i)
    (ie64_most 60 (by norm_num) 5 (by norm_num))
    (fun i => q64_most 60 (by norm_num) _ _ _ _ _ _ i) (fun i => q64_fin _ _ _ _ _ _ i) (by show some ((5 : ℤ) : ℝ) = _; norm_num) (by norm_num)
    (sm64 (by norm_num)) (by rw [q001_norm]; norm_num) (by norm_num) sphereIe_R (by norm_num) blindIe greaterIe.1 greaterIe.2 zeroIe greaterEqIe.1 greaterEqIe.2
  have hδ : δ = 3 := by
    refine sphere64_dist 4 (by norm_num) one_pos 3 δ (by norm_num) (by norm_num) ?_
    rw [← q423, ← q001, ← sphereIe_origin]; exact h1
  subst hδ
  have hu := unit64'
  change (2 : ℝ)⁻¹ ^ double64.prec ≤ _ at hu
  obtain ⟨s₁, s₂, k2, k3, k4⟩ := h2 (by
    generalize (2 : ℝ)⁻¹ ^ double64.prec = μ at hu
    norm_num at hu ⊢; linarith)
  obtain ⟨e1, e2⟩ := sphere64_params one_pos k2 (by rw [← q423, ← q001, ← sphereIe_origin, show (fl64 5).1 = (5 : ℝ) from sphere64_radius]; exact k3)
  rw [mul_one] at e1 e2
  subst e1 e2
  rw [show ((5 : ℝ) ^ 2 - 3 ^ 2) = 4 ^ 2 by norm_num, Real.sqrt_sq (by norm_num)] at k4
  obtain ⟨a1, a2, -⟩ := k4 _ 4 (.inl ⟨rfl, rfl⟩)
  obtain ⟨-, -, b3⟩ := k4 _ (-4) (.inr ⟨rfl, rfl⟩)
  have hs := a2 (by generalize (2 : ℝ)⁻¹ ^ double64.prec = μ at hu; norm_num at hu ⊢; linarith)
  have hn := b3 (by generalize (2 : ℝ)⁻¹ ^ double64.prec = μ at hu; norm_num at hu ⊢; linarith)
  obtain ⟨p, hp⟩ := Option.isSome_iff_exists.1 hs
  refine ⟨p, ?_, (h0 p (.inl hp)).1, ?_⟩
  · cases hr : intersectSphereRay sphereIe ⟨q64 4 2 3, q64 0 0 1⟩
    rw [hr] at hp hn
    simp only at hp hn
    rw [hp, hn]
  · have h := a1 p hp 2
    have e : Spec.pointAt (reals (q64 4 2 3)) (reals (q64 0 0 1)) 4 2 = 7 := by
      rw [q64_vals, q001]; simp [Spec.pointAt]; norm_num
    simp only [e] at h
    generalize (2 : ℝ)⁻¹ ^ double64.prec = μ at hu h
    norm_num at hu h ⊢; linarith

/-- The segment from that point to (4, 2, 11). -/
example : ∃ p, intersectSphereSegment sphereIe ⟨q64 4 2 3, q64 4 2 11⟩ = ⟨some p, none⟩ ∧ (∀ i, ∃ x, (p i).val? = some x) ∧ |reals p 2 - 7| ≤ 1 / 10 ^ 11 := by
  have hd : (fun i => reals (q64 4 2 11) i - reals (q64 4 2 3) i) = ![0, 0, 8] := by
    have h1 := q64_vals 4 2 11 (by norm_num) (by norm_num) (by norm_num)
    have h2 := q64_vals 4 2 3 (by norm_num) (by norm_num) (by norm_num)
    funext i
    rw [congrFun h1 i, congrFun h2 i]
    fin_cases i <;> norm_num
  have hL : (8 : ℝ) = Spec.dist (reals (q64 4 2 11)) (reals (q64 4 2 3)) := by
    rw [q64_vals, q64_vals, dist3 _ _ _ _ _ _ 8 (by norm_num) (by norm_num)]
  obtain ⟨h0, δ, h1, h2, -⟩ := C153_segment_partial (F := double64) 60 0 (by show 4 * 60 + 14 < 1024; norm_num) (by show 2 * 60 + 0 + 8 < 1024; norm_num)
    sphereIe ⟨q64 4 2 3, q64 4 2 11⟩ Tol.eps (by show 11 ≤ 53; norm_num) (r := 5) (R := 8) (L := 8) (m := 1) (τ := 1 / 10 ^ 6) (ρ := 1 / 10 ^ 6)
    (fun i => q64_most 60 (by norm_num) _ _ _ _ _ _ i) (ie64_most 60 (by norm_num) 5 (by norm_num))
    (fun i => ⟨q64_most 60 (by norm_num) _ _ _ _ _ _ i, q64_most 60 (by norm_num) _ _ _ _ _ _ i⟩) (by show some ((5 : ℤ) : ℝ) = _; norm_num) (by norm_num)
    hL one_pos le_rfl (by norm_num) (by norm_num) (by norm_num)
    (by
      intro k hk
      cases hk
      have h3 : (2 : ℝ) ^ (-1074 : ℤ) ≤ 2 ^ (-200 : ℤ) := zpow_le_zpow_right₀ (by norm_num) (by norm_num)
      have h4 : (2 : ℝ) ^ (-200 : ℤ) * 8 ≤ ((2 : ℝ)⁻¹ ^ double64.prec) ^ 2 := by show _ ≤ ((2 : ℝ)⁻¹ ^ 53) ^ 2; norm_num
      have h5 : 0 ≤ ((2 : ℝ)⁻¹ ^ double64.prec) ^ 2 := by positivity
      have h6 : (0 : ℝ) ≤ 2 ^ (-200 : ℤ) := by positivity
      generalize (2 : ℝ) ^ (-1074 : ℤ) = x at h3 ⊢
      generalize (2 : ℝ) ^ (-200 : ℤ) = y at h3 h4 h6
      generalize ((2 : ℝ)⁻¹ ^ double64.prec) ^ 2 = z at h4 h5 ⊢
      constructor <;> linarith)
    sphereIe_R (by norm_num) (by norm_num) blindIe greaterIe.1 greaterIe.2 zeroIe greaterEqIe.1 greaterEqIe.2 lessEqIe.1 lessEqIe.2
  have hδ : δ = 3 := by
    refine sphere64_dist 4 (by norm_num) (w := 8) (by norm_num) 3 δ (by norm_num) (by norm_num) ?_
    rw [← q423, ← hd, ← sphereIe_origin]; exact h1
  subst hδ
  have hu := unit64'
  change (2 : ℝ)⁻¹ ^ double64.prec ≤ _ at hu
  obtain ⟨s₁, s₂, k2, k3, k4⟩ := h2 (by
    generalize (2 : ℝ)⁻¹ ^ double64.prec = μ at hu
    norm_num at hu ⊢; linarith)
  obtain ⟨e1, e2⟩ := sphere64_params (w := 8) (by norm_num) k2 (by rw [← q423, ← hd, ← sphereIe_origin, show (fl64 5).1 = (5 : ℝ) from sphere64_radius]; exact k3)
  obtain rfl : s₁ = 1 / 2 := by linarith
  obtain rfl : s₂ = -(1 / 2) := by linarith
  rw [show ((5 : ℝ) ^ 2 - 3 ^ 2) = 4 ^ 2 by norm_num, Real.sqrt_sq (by norm_num)] at k4
  obtain ⟨a1, a2, -⟩ := k4 _ (1 / 2) (.inl ⟨rfl, rfl⟩)
  obtain ⟨-, -, b3⟩ := k4 _ (-(1 / 2)) (.inr ⟨rfl, rfl⟩)
  have hs := a2 (by generalize (2 : ℝ)⁻¹ ^ double64.prec = μ at hu; norm_num at hu ⊢; linarith)
    (by generalize (2 : ℝ)⁻¹ ^ double64.prec = μ at hu; norm_num at hu ⊢; linarith)
  have hn := b3 (.inl (by generalize (2 : ℝ)⁻¹ ^ double64.prec = μ at hu; norm_num at hu ⊢; linarith))
  obtain ⟨p, hp⟩ := Option.isSome_iff_exists.1 hs
  refine ⟨p, ?_, h0 p (.inl hp), ?_⟩
  · cases hr : intersectSphereSegment sphereIe ⟨q64 4 2 3, q64 4 2 11⟩
    rw [hr] at hp hn
    simp only at hp hn
    rw [hp, hn]
  · have h := a1 p hp 2
    have e : Spec.pointAt (reals (q64 4 2 3)) (fun i => reals (q64 4 2 11) i - reals (q64 4 2 3) i) (1 / 2) 2 = 7 := by
      rw [hd, q64_vals]; simp [Spec.pointAt]; norm_num
    simp only [e] at h
    generalize (2 : ℝ)⁻¹ ^ double64.prec = μ at hu h
    norm_num at hu h ⊢; linarith

/-- A line of doubles through the centre of a sphere of radius `2⁵¹²`: nothing is reported. -/
example : ∃ (s : Sphere (Ieee double64)) (b d : Vec (Ieee double64) 3), s.radius.val? = some (2 ^ 512) ∧ reals s.origin = 0 ∧
    reals b = ![2 ^ 512, 0, 0] ∧ reals d = ![1, 0, 0] ∧ intersectSphereLine s ⟨b, d⟩ = ⟨none, none⟩ := by
  obtain ⟨s, a, b, d, h1, h2, -, -, h3, h4, -, -, -, h5, -⟩ := C153_counterexample (F := double64) Tol.eps 512 (by show 512 < 1024; norm_num) le_rfl
    (dec_false (by rintro ⟨x, y, h, -⟩; cases h)) (dec_false (by rintro ⟨x, h, -⟩; cases h))
  exact ⟨s, b, d, h1, h2, h3, h4, h5⟩
end Examples
end Verif
