import Verif.Props.FloatPlane
import Verif.Props.FloatNormal
import Verif.Props.Intersect
import Verif.Props.FloatBox

set_option linter.unusedSectionVars false

/-
C113: intersections and distances of lines in floating point.
-/
namespace Verif
open Spec

section
variable {F : FloatFormat}

/-! ### Lines in the plane, seen as lines and planes in space -/

/-- A vector of the plane in space. -/
def lift3 {T : Type} [Zero T] (v : Vec T 2) : Vec T 3 := ![v 0, v 1, 0]

theorem Fl.add_neg_fl (a b : Fl F) : a + -b = a - b := Fl.ext (by
  rw [Fl.val_add, Fl.val_sub, Fl.val_neg, sub_eq_add_neg])

theorem Fl.mul_neg_fl (a b : Fl F) : a * -b = -(a * b) := Fl.ext (by
  show F.rnd (a.1 * -b.1) = -F.rnd (a.1 * b.1)
  rw [mul_neg, F.rounds.odd])

theorem Fl.mul_comm_fl (a b : Fl F) : a * b = b * a := Fl.ext (by rw [Fl.val_mul, Fl.val_mul, mul_comm])

theorem Fl.zero_mul_fl (a : Fl F) : 0 * a = 0 := Fl.ext (by rw [Fl.val_mul, Fl.val_zero, zero_mul, F.rounds.zero])

theorem Fl.sub_self_fl (a : Fl F) : a - a = 0 := Fl.ext (by rw [Fl.val_sub, sub_self, F.rounds.zero, Fl.val_zero])

/-- The determinant is the scalar product with the normal, down to the last bit. -/
theorem det_eq_dot (w : Vec (Fl F) 2) (r : Vec (Fl F) 2) :
    w 0 * r 1 - w 1 * r 0 = dot (lift3 w) (lift3 ![r 1, -r 0]) := by
  have e : dot (lift3 w) (lift3 ![r 1, -r 0]) = ((0 + w 0 * r 1) + w 1 * -r 0) + 0 * 0 := rfl
  rw [e, Fl.zero_add_fl, Fl.zero_mul_fl, Fl.add_zero_fl, Fl.mul_neg_fl, Fl.add_neg_fl]

theorem lift3_sub (a b : Vec (Fl F) 2) : lift3 (vsub a b) = vsub (lift3 a) (lift3 b) := by
  funext i
  fin_cases i
  · rfl
  · rfl
  · exact (Fl.sub_self_fl 0).symm

theorem lift3_vals (a : Vec (Fl F) 2) : (fun i => ((lift3 a) i).1) = lift3 (fun i => (a i).1) := by
  funext i; fin_cases i <;> rfl

theorem lift3_norm (a : Vec ℝ 2) : Spec.norm (lift3 a) = Spec.norm a := by
  unfold Spec.norm
  congr 1
  rw [Fin.sum_univ_three, Fin.sum_univ_two]
  simp [lift3]

theorem lift3_dist (a b : Vec ℝ 2) : Spec.dist (lift3 a) (lift3 b) = Spec.dist a b := by
  unfold Spec.dist
  congr 1
  rw [Fin.sum_univ_three, Fin.sum_univ_two]
  simp [lift3]

theorem lift3_pointAt (o d : Vec ℝ 2) (t : ℝ) : Spec.pointAt (lift3 o) (lift3 d) t = lift3 (Spec.pointAt o d t) := by
  funext i; fin_cases i <;> simp [lift3, Spec.pointAt]

theorem lift3_inj {a b : Vec ℝ 2} (h : lift3 a = lift3 b) : a = b := by
  funext i
  fin_cases i
  · exact congrFun h 0
  · exact congrFun h 1

/-- The vertical plane over a line of the plane. -/
theorem lift3_plane (o r : Vec ℝ 2) (hr : 0 < Spec.norm r) (q : Vec ℝ 3) :
    q ∈ Spec.plane (lift3 o) (lift3 ![r 1, -r 0]) ↔ (![q 0, q 1] : Vec ℝ 2) ∈ Spec.line o r := by
  have h0 : 0 < r 0 ^ 2 + r 1 ^ 2 := by
    have := norm_sq' r
    rw [Fin.sum_univ_two] at this
    rw [← this]; positivity
  have e : q ∈ Spec.plane (lift3 o) (lift3 ![r 1, -r 0]) ↔ (q 0 - o 0) * r 1 - (q 1 - o 1) * r 0 = 0 := by
    show ∑ i, (q i - lift3 o i) * lift3 ![r 1, -r 0] i = 0 ↔ _
    rw [Fin.sum_univ_three]
    simp [lift3, sub_eq_add_neg]
  rw [e]
  constructor
  · intro h
    refine ⟨((q 0 - o 0) * r 0 + (q 1 - o 1) * r 1) / (r 0 ^ 2 + r 1 ^ 2), ?_⟩
    funext i
    fin_cases i
    · show q 0 = o 0 + _ * r 0
      field_simp
      linear_combination r 1 * h
    · show q 1 = o 1 + _ * r 1
      field_simp
      linear_combination -r 0 * h
  · rintro ⟨t, ht⟩
    have h1 : q 0 = o 0 + t * r 0 := congrFun ht 0
    have h2 : q 1 = o 1 + t * r 1 := congrFun ht 1
    rw [h1, h2]; ring

theorem lift3_distance (o r v : Vec ℝ 2) (hr : 0 < Spec.norm r) {δ : ℝ}
    (h : Spec.IsDistance {lift3 v} (Spec.plane (lift3 o) (lift3 ![r 1, -r 0])) δ) : Spec.IsDistance {v} (Spec.line o r) δ := by
  obtain ⟨⟨_, rfl, q, hq, h1⟩, h2⟩ := h
  have hlow : ∀ x ∈ {x | ∃ p ∈ ({v} : Set (Vec ℝ 2)), ∃ q ∈ Spec.line o r, x = Spec.dist p q}, δ ≤ x := by
    rintro _ ⟨_, rfl, q, hq, rfl⟩
    refine h2 ⟨_, rfl, lift3 q, (lift3_plane o r hr _).2 ?_, (lift3_dist _ _).symm⟩
    convert hq using 1
    funext i; fin_cases i <;> rfl
  have hq' := (lift3_plane o r hr q).1 hq
  have h3 : Spec.dist v ![q 0, q 1] ≤ δ := by
    rw [h1]
    refine Real.sqrt_le_sqrt ?_
    rw [Fin.sum_univ_three, Fin.sum_univ_two]
    simp only [lift3, Matrix.cons_val_zero, Matrix.cons_val_one, Matrix.cons_val]
    have := sq_nonneg (0 - q 2)
    linarith
  have h4 := hlow _ ⟨v, rfl, _, hq', rfl⟩
  exact ⟨⟨v, rfl, _, hq', le_antisymm h4 h3⟩, hlow⟩

variable [Tol (Fl F)]

/-- **C113** Two lines in the plane whose directions enclose an angle with sine at least about `s`. The point computed exists, is within
`2^-prec (|x i| + 26 W / s²)` of the only common point `x` in each coordinate, where `W` is the distance of the stored origins, and within
`2^-prec (2 Σ|x i| + 36 W / s)` of the second line. -/
theorem C113_line_2d (l r : Line (Fl F) 2) (e : Fl F) (hp : 9 ≤ F.prec) (hmin : ∀ k, F.emin = some k → k < -2 * (F.prec : ℤ))
    (hl : |Spec.norm (fun i => (l.direction i).1) - 1| ≤ 1 / 32) (hr : |Spec.norm (fun i => (r.direction i).1) - 1| ≤ 1 / 32)
    {s ω : ℝ} (hs0 : 0 < s)
    (hs : s * Spec.norm (fun i => (l.direction i).1) ≤ |(l.direction 0).1 * (r.direction 1).1 - (l.direction 1).1 * (r.direction 0).1|)
    (hu : 64 * (2 : ℝ)⁻¹ ^ F.prec ≤ s) (hω0 : 0 ≤ ω) (hω : ∀ k, F.emin = some k → (2 : ℝ) ^ k * (1 / s + 3) ≤ ω)
    (hz : ∀ x : Fl F, 1 / 2 * s ≤ |x.1| → Tol.isZero x e = false) :
    ∃ q x, intersectLine2 l r e = some q ∧
      Spec.line (fun i => (l.origin i).1) (fun i => (l.direction i).1) ∩ Spec.line (fun i => (r.origin i).1) (fun i => (r.direction i).1) = {x} ∧
      (∀ i, |(q i).1 - x i| ≤ (2 : ℝ)⁻¹ ^ F.prec * |x i|
        + 26 * ((2 : ℝ)⁻¹ ^ F.prec / s * (Spec.dist (fun i => (r.origin i).1) (fun i => (l.origin i).1) / s)) + 17 * ω) ∧
      ∃ δ, Spec.IsDistance {fun i => (q i).1} (Spec.line (fun i => (r.origin i).1) (fun i => (r.direction i).1)) δ ∧
        δ ≤ (2 : ℝ)⁻¹ ^ F.prec * (2 * ∑ i, |x i| + 36 * (Spec.dist (fun i => (r.origin i).1) (fun i => (l.origin i).1) / s)) + 20 * ω := by
  have hu0 := F.unit_pos
  obtain ⟨n1, n2⟩ := abs_le.1 hr
  obtain ⟨d1, d2⟩ := abs_le.1 hl
  set R : Vec ℝ 2 := fun i => (r.direction i).1 with hR
  set L : Vec ℝ 2 := fun i => (l.direction i).1 with hL
  have hnv : (fun i => ((lift3 ![r.direction 1, -r.direction 0] : Vec (Fl F) 3) i).1) = lift3 ![R 1, -R 0] := by
    funext i; fin_cases i <;> simp [lift3, hR, Fl.val_neg, Fl.val_zero]
  have hdv : (fun i => ((lift3 l.direction : Vec (Fl F) 3) i).1) = lift3 L := lift3_vals _
  have hov : (fun i => ((lift3 r.origin : Vec (Fl F) 3) i).1) = lift3 (fun i => (r.origin i).1) := lift3_vals _
  have hlv : (fun i => ((lift3 l.origin : Vec (Fl F) 3) i).1) = lift3 (fun i => (l.origin i).1) := lift3_vals _
  have hnn : Spec.norm (lift3 ![R 1, -R 0]) = Spec.norm R := by
    rw [lift3_norm]
    unfold Spec.norm
    congr 1
    rw [Fin.sum_univ_two, Fin.sum_univ_two]
    simp only [Matrix.cons_val_zero, Matrix.cons_val_one]
    ring
  have hNn : Spec.norm (fun i => ((lift3 ![r.direction 1, -r.direction 0] : Vec (Fl F) 3) i).1) = Spec.norm R := by rw [hnv, hnn]
  have hLn : Spec.norm (fun i => ((lift3 l.direction : Vec (Fl F) 3) i).1) = Spec.norm L := by rw [hdv, lift3_norm]
  have hdet : ∑ i, lift3 L i * lift3 ![R 1, -R 0] i = (l.direction 0).1 * (r.direction 1).1 - (l.direction 1).1 * (r.direction 0).1 := by
    rw [Fin.sum_univ_three]
    simp [lift3, hL, hR, sub_eq_add_neg]
  obtain ⟨h1, t, h2, -, h4, δ, h5, h6⟩ := plane_hit (lift3 r.origin) (lift3 ![r.direction 1, -r.direction 0]) (lift3 l.origin) (lift3 l.direction)
    (lift3 L) (fun i => by rw [← hdv, sub_self, abs_zero]; positivity) hp (fun k hk => (hmin k hk).le) (lift3_norm L).symm (by linarith)
    (tiny_le_norm hmin (by linarith)) (by rw [hNn]; linarith) (by rw [hNn]; linarith) hs0
    (by
      have e1 : ∑ i, lift3 L i * ((lift3 ![r.direction 1, -r.direction 0] : Vec (Fl F) 3) i).1 = ∑ i, lift3 L i * lift3 ![R 1, -R 0] i :=
        Finset.sum_congr rfl fun i _ => by rw [← hnv]
      rw [e1, hdet]; exact hs)
    hu rfl hω0
    (fun k hk => le_trans (mul_le_mul_of_nonneg_left (by linarith) (zpow_pos two_pos k).le) (hω k hk))
  rw [hov, hlv, hnv] at h2
  rw [hov, hnv] at h5
  rw [hov, hlv, lift3_dist] at h4 h6
  have hR0 : 0 < Spec.norm R := by linarith
  have hdetA : l.direction 0 * r.direction 1 - r.direction 0 * l.direction 1 = dot (lift3 l.direction) (lift3 ![r.direction 1, -r.direction 0]) := by
    rw [Fl.mul_comm_fl (r.direction 0), det_eq_dot]
  have hnum : vsub r.origin l.origin 0 * r.direction 1 - vsub r.origin l.origin 1 * r.direction 0
      = dot (vsub (lift3 r.origin) (lift3 l.origin)) (lift3 ![r.direction 1, -r.direction 0]) := by
    rw [det_eq_dot, lift3_sub]
  have hval : intersectLine2 l r e = some (vadd l.origin (vscale l.direction
      (dot (vsub (lift3 r.origin) (lift3 l.origin)) (lift3 ![r.direction 1, -r.direction 0])
        / dot (lift3 l.direction) (lift3 ![r.direction 1, -r.direction 0])))) := by
    unfold intersectLine2
    simp only [hdetA, hnum]
    rw [hz _ (by
      rw [Fl.val_stdAbs, abs_abs]
      have := mul_le_mul_of_nonneg_left d1 hs0.le
      linarith)]
    rfl
  set t' := dot (vsub (lift3 r.origin) (lift3 l.origin)) (lift3 ![r.direction 1, -r.direction 0])
        / dot (lift3 l.direction) (lift3 ![r.direction 1, -r.direction 0]) with ht'
  have hq : (fun i => (vadd (lift3 l.origin) (vscale (lift3 l.direction) t') i).1)
      = lift3 (fun i => (vadd l.origin (vscale l.direction t') i).1) := by
    funext i
    fin_cases i
    · rfl
    · rfl
    · show ((0 : Fl F) + 0 * t').1 = 0
      rw [Fl.zero_add_fl, Fl.zero_mul_fl, Fl.val_zero]
  rw [lift3_pointAt] at h2
  refine ⟨_, Spec.pointAt (fun i => (l.origin i).1) L t, hval, ?_, ?_, δ, ?_, ?_⟩
  · ext y
    have h7 : y ∈ Spec.line (fun i => (r.origin i).1) R ↔ lift3 y ∈ Spec.plane (lift3 fun i => (r.origin i).1) (lift3 ![R 1, -R 0]) := by
      rw [lift3_plane _ _ hR0]
      have : (![lift3 y 0, lift3 y 1] : Vec ℝ 2) = y := by funext i; fin_cases i <;> rfl
      rw [this]
    have h8 : y ∈ Spec.line (fun i => (l.origin i).1) L ↔ lift3 y ∈ Spec.line (lift3 fun i => (l.origin i).1) (lift3 L) := by
      constructor
      · rintro ⟨a, rfl⟩; exact ⟨a, (lift3_pointAt _ _ _).symm⟩
      · rintro ⟨a, ha⟩; exact ⟨a, lift3_inj (by rw [ha, lift3_pointAt])⟩
    have h9 := Set.ext_iff.1 h2 (lift3 y)
    constructor
    · rintro ⟨ha, hb⟩
      exact lift3_inj (h9.1 ⟨h7.1 hb, h8.1 ha⟩)
    · intro h
      have := h9.2 (by rw [show y = _ from h]; exact Set.mem_singleton _)
      exact ⟨h8.2 this.2, h7.2 this.1⟩
  · intro i
    have h7 := h4 (Fin.castLE (by norm_num) i)
    rw [lift3_pointAt] at h7
    fin_cases i
    · exact h7
    · exact h7
  · rw [hq] at h5
    exact lift3_distance _ _ _ hR0 h5
  · refine h6.trans (le_of_eq ?_)
    rw [lift3_pointAt, Fin.sum_univ_three, Fin.sum_univ_two]
    simp only [lift3, Matrix.cons_val_zero, Matrix.cons_val_one, Matrix.cons_val, abs_zero, add_zero]
    rfl

/-- **C113** Lines in the plane are reported not to meet when the tolerance accepts everything up to the determinant of their directions and
its rounding error; parallel lines (determinant zero) need only a tolerance of `5 * 2^-prec`. -/
theorem C113_line_2d_none (l r : Line (Fl F) 2) (e : Fl F) (hp : 9 ≤ F.prec) (hmin : ∀ k, F.emin = some k → k ≤ -2 * (F.prec : ℤ))
    (hl : Spec.norm (fun i => (l.direction i).1) ≤ 33 / 32) (hr : Spec.norm (fun i => (r.direction i).1) ≤ 33 / 32)
    (hz : ∀ x : Fl F, |x.1| ≤ |(l.direction 0).1 * (r.direction 1).1 - (l.direction 1).1 * (r.direction 0).1| + 5 * (2 : ℝ)⁻¹ ^ F.prec →
      Tol.isZero x e = true) :
    intersectLine2 l r e = none := by
  have hu0 := F.unit_pos
  have ht := tiny_of_emin hmin
  have hD : 64 * (3 + 2) ≤ 2 ^ F.prec := le_trans (by norm_num) (Nat.pow_le_pow_right (by norm_num) hp)
  obtain ⟨f1, f2, f3, f4⟩ := dim_facts (D := 3) hD ht
  push_cast at f2
  have hu1 : F.unit ≤ 1 / 320 := by linarith
  have ex : ∀ a : Fl F, |a.1 - a.1| ≤ F.unit * |a.1| := fun a => by rw [sub_self, abs_zero]; positivity
  have h1 := det_rel (by linarith) (ex (l.direction 0)) (ex (r.direction 1)) (ex (r.direction 0)) (ex (l.direction 1))
  have h2 : |(l.direction 0).1 * (r.direction 1).1| + |(r.direction 0).1 * (l.direction 1).1| ≤ 33 / 32 * (33 / 32) := by
    have h3 := sum_abs_le (fun i => (l.direction i).1) ![(r.direction 1).1, (r.direction 0).1]
    rw [Fin.sum_univ_two] at h3
    have h4 : Spec.norm (![(r.direction 1).1, (r.direction 0).1] : Vec ℝ 2) = Spec.norm (fun i => (r.direction i).1) := by
      unfold Spec.norm
      congr 1
      rw [Fin.sum_univ_two, Fin.sum_univ_two, add_comm]
      rfl
    rw [h4] at h3
    have h5 := mul_le_mul hl hr (norm_nonneg' _) (by norm_num)
    rw [mul_comm (r.direction 0).1]
    exact h3.trans h5
  have h3 := mul_le_mul_of_nonneg_left h2 (show 0 ≤ 17 / 4 * F.unit by positivity)
  have h4 : F.unit * F.unit ≤ 1 / 320 * F.unit := mul_le_mul_of_nonneg_right hu1 hu0.le
  unfold intersectLine2
  simp only
  rw [hz _ (by
    rw [Fl.val_stdAbs, abs_abs, mul_comm (l.direction 1).1]
    change _ ≤ _ + 5 * F.unit
    have := abs_sub_abs_le_abs_sub (l.direction 0 * r.direction 1 - r.direction 0 * l.direction 1).1
      ((l.direction 0).1 * (r.direction 1).1 - (r.direction 0).1 * (l.direction 1).1)
    linarith)]
  rfl

/-! ### Distance of lines -/

theorem cross_norm_sq (d e : Vec ℝ 3) : Spec.norm (cross d e) ^ 2 = Spec.gram d e := by
  rw [← cross_dp_self, dp_self_norm]

/-- The distance of skew lines. -/
theorem skew_distance (lo n ro m : Vec ℝ 3) (hg : 0 < Spec.norm (cross n m)) :
    Spec.IsDistance (Spec.line lo n) (Spec.line ro m) (|∑ i, (lo i - ro i) * cross n m i| / Spec.norm (cross n m)) := by
  have hgpos : 0 < Spec.gram n m := by rw [← cross_norm_sq]; positivity
  obtain ⟨t, s, h1, h2⟩ := exists_critical (w := lo - ro) hgpos.ne'
  have hval : |∑ i, (lo i - ro i) * cross n m i| / Spec.norm (cross n m) = Spec.dist (Spec.pointAt lo n t) (Spec.pointAt ro m s) := by
    have e0 : ∑ i, (lo i - ro i) * cross n m i = (lo - ro) ⬝ᵥ cross n m := rfl
    have e1 : (lo - ro) ⬝ᵥ cross n m = ((lo - ro) + t • n - s • m) ⬝ᵥ cross n m := by
      simp only [sub_dotProduct, add_dotProduct, smul_dotProduct, dp_cross_left, dp_cross_right]; simp
    have e2 : Spec.pointAt lo n t - Spec.pointAt ro m s = (lo - ro) + t • n - s • m := by
      rw [pointAt_eq, pointAt_eq]; abel
    have e3 : Spec.norm (cross n m) = |Spec.norm (cross n m)| := (abs_of_pos hg).symm
    rw [e0, e1, spec_dist_eq, e2, e3, ← abs_div, ← Real.sqrt_sq_eq_abs, div_pow, triple_sq _ _ _ h1 h2, cross_norm_sq,
      mul_div_cancel_right₀ _ hgpos.ne']
  rw [hval]
  refine IsDistance_intro ⟨_, rfl⟩ ⟨_, rfl⟩ ?_
  have key : ∀ t s : ℝ, Spec.pointAt lo n t - Spec.pointAt ro m s = (lo - ro) + t • n - s • m := by
    intro t s; rw [pointAt_eq, pointAt_eq]; abel
  rintro _ ⟨t', rfl⟩ _ ⟨s', rfl⟩
  rw [key, key, sq_two_lines h1 h2 t' s']
  have := dp_self_nonneg ((t' - t) • n - (s' - s) • m)
  linarith

/-- The distance of parallel lines. -/
theorem parallel_distance (lo n ro m : Vec ℝ 3) (hm : m ≠ 0) (h : Spec.Parallel n m) {δ : ℝ}
    (hs : Spec.IsDistance {lo} (Spec.line ro m) δ) : Spec.IsDistance (Spec.line lo n) (Spec.line ro m) δ := by
  have hpar := parallel_of_gram_eq_zero hm (by rw [gram_comm]; exact gram_eq_zero_of_parallel h : Spec.gram m n = 0)
  set c := n ⬝ᵥ m / (m ⬝ᵥ m)
  obtain ⟨⟨p, hp, q, hq, hv⟩, hlow⟩ := hs
  obtain rfl : p = lo := hp
  refine ⟨⟨p, ⟨0, by rw [pointAt_eq]; simp⟩, q, hq, hv⟩, ?_⟩
  rintro x ⟨_, ⟨t', rfl⟩, _, ⟨s', rfl⟩, rfl⟩
  refine (hlow ⟨p, rfl, _, ⟨s' - t' * c, rfl⟩, rfl⟩).trans (le_of_eq ?_)
  rw [spec_dist_eq, spec_dist_eq]
  have : p - Spec.pointAt ro m (s' - t' * c) = Spec.pointAt p n t' - Spec.pointAt ro m s' := by
    rw [pointAt_eq, pointAt_eq, pointAt_eq, hpar, smul_smul, sub_smul]; abel
  rw [this]

/-- The computed cross product of two directions of about unit length. -/
theorem direction_cross (a b : Vec (Fl F) 3) (hp : 9 ≤ F.prec) (hmin : ∀ k, F.emin = some k → k ≤ -4 * (F.prec : ℤ))
    (ha : Spec.norm (Fl.vals a) ≤ 33 / 32) (hb : Spec.norm (Fl.vals b) ≤ 33 / 32) :
    Spec.dist (Fl.vals (cross a b)) (cross (Fl.vals a) (Fl.vals b)) ≤ 7 * F.unit := by
  obtain ⟨ht, hu⟩ := tiny_small hmin hp
  have hu0 := F.unit_pos
  have ex : ∀ (a : Vec (Fl F) 3) (i : Fin 3), |(a i).1 - Fl.vals a i| ≤ F.unit * |Fl.vals a i| := fun a i => by
    show |(a i).1 - (a i).1| ≤ _
    rw [sub_self, abs_zero]; positivity
  have h := cross_err a b (Fl.vals a) (Fl.vals b) (by linarith) (ex a) (ex b)
  have h1 := mul_le_mul ha hb (norm_nonneg' _) (by norm_num)
  have h2 := mul_le_mul_of_nonneg_left h1 (show 0 ≤ 51 / 8 * F.unit by positivity)
  have h3 : F.unit ^ 4 ≤ 1 / 512 * F.unit := by
    have e1 : F.unit ^ 3 ≤ (1 / 512) ^ 3 := pow_le_pow_left₀ hu0.le hu 3
    have e2 : F.unit ^ 4 = F.unit ^ 3 * F.unit := by ring
    have e3 := mul_le_mul_of_nonneg_right e1 hu0.le
    rw [e2]
    norm_num at e3
    linarith
  linarith

/-- The assertions on the lengths of the directions hold. -/
theorem direction_length (a : Vec (Fl F) 3) (hp : 9 ≤ F.prec) (hmin : ∀ k, F.emin = some k → k ≤ -4 * (F.prec : ℤ)) {η : ℝ}
    (ha : |Spec.norm (Fl.vals a) - 1| ≤ η) (hη : η ≤ 1 / 32) : |(length a).1 - 1| ≤ η + 6 * F.unit := by
  obtain ⟨ht, hu⟩ := tiny_small hmin hp
  have hu0 := F.unit_pos
  obtain ⟨a1, a2⟩ := abs_le.1 ha
  set H := Spec.norm (Fl.vals a) with hH
  have h3 : F.unit ^ 4 ≤ F.unit * F.unit * (1 / 4) := by
    have e1 : F.unit * F.unit ≤ 1 / 4 := le_trans (mul_le_mul hu hu hu0.le (by norm_num)) (by norm_num)
    have e2 : F.unit ^ 4 = F.unit * F.unit * (F.unit * F.unit) := by ring
    rw [e2]
    exact mul_le_mul_of_nonneg_left e1 (by positivity)
  have h4 : F.unit * F.unit * (1 / 2) ≤ F.unit * F.unit * H := mul_le_mul_of_nonneg_left (by linarith) (by positivity)
  have h5 : F.unit * F.unit * (1 / 4) ≤ F.unit * F.unit * H ^ 2 := mul_le_mul_of_nonneg_left (by nlinarith) (by positivity)
  have h6 : 0 ≤ F.unit * F.unit := by positivity
  have h := length_err a rfl (by linarith) (by linarith) (by linarith) (by push_cast; linarith)
  push_cast at h
  have h7 : F.unit * H ≤ F.unit * (33 / 32) := mul_le_mul_of_nonneg_left (by linarith) hu0.le
  have h8 : |(length a).1 - 1| ≤ |(length a).1 - H| + |H - 1| := by
    rw [show (length a).1 - 1 = ((length a).1 - H) + (H - 1) by ring]; exact abs_add_le _ _
  linarith

variable {η : ℝ}

/-- **C113** The absolute value of the distance computed for two lines in space (with the directions stored in them) whose directions span
a parallelogram of area at least `s` differs from their distance by at most `40 * 2^-prec * W / s`, where `W` is the distance of the stored
origins. -/
theorem C113_distance_skew (dbg : Bool) (l r : Line (Fl F) 3) (hp : 9 ≤ F.prec) (hmin : ∀ k, F.emin = some k → k ≤ -4 * (F.prec : ℤ))
    (hl : |Spec.norm (fun i => (l.direction i).1) - 1| ≤ η) (hr : |Spec.norm (fun i => (r.direction i).1) - 1| ≤ η) (hη : η ≤ 1 / 32)
    (hone : ∀ x : Fl F, |x.1 - 1| ≤ η + 6 * (2 : ℝ)⁻¹ ^ F.prec → isEq x 1 = true)
    {s ω : ℝ} (hs0 : 0 < s) (hs : s ^ 2 ≤ Spec.gram (fun i => (l.direction i).1) (fun i => (r.direction i).1))
    (hu : 64 * (2 : ℝ)⁻¹ ^ F.prec ≤ s) (hω0 : 0 ≤ ω) (hω : ∀ k, F.emin = some k → (2 : ℝ) ^ k * (1 / s + 1) ≤ ω)
    (hz : ∀ x : Fl F, 1 / 2 * s ≤ |x.1| → isZero x = false) :
    ∃ v δ, distLineLine dbg l r = .ok v ∧
      Spec.IsDistance (Spec.line (fun i => (l.origin i).1) (fun i => (l.direction i).1))
        (Spec.line (fun i => (r.origin i).1) (fun i => (r.direction i).1)) δ ∧
      |(|v.1|) - δ| ≤ 40 * ((2 : ℝ)⁻¹ ^ F.prec * (Spec.dist (fun i => (l.origin i).1) (fun i => (r.origin i).1) / s)) + 15 * ω := by
  obtain ⟨ht, hu1⟩ := tiny_small hmin hp
  have hu0 := F.unit_pos
  have ht0 := F.tiny_nonneg
  have htt := tiny_of_emin (F := F) fun k hk => by have := hmin k hk; omega
  have hD : 64 * (3 + 2) ≤ 2 ^ F.prec := le_trans (by norm_num) (Nat.pow_le_pow_right (by norm_num) hp)
  have L1 := direction_length l.direction hp hmin hl hη
  have R1 := direction_length r.direction hp hmin hr hη
  have hc := direction_cross l.direction r.direction hp hmin (by obtain ⟨-, h⟩ := abs_le.1 hl; change Spec.norm (Fl.vals l.direction) - 1 ≤ _ at h; linarith)
    (by obtain ⟨-, h⟩ := abs_le.1 hr; change Spec.norm (Fl.vals r.direction) - 1 ≤ _ at h; linarith)
  change 64 * F.unit ≤ s at hu
  set c' := cross l.direction r.direction with hc'
  set c : Vec ℝ 3 := cross (Fl.vals l.direction) (Fl.vals r.direction) with hcd
  set N := Spec.norm c with hN
  have hNs : s ≤ N := by
    have h1 : s ^ 2 ≤ N ^ 2 := by rw [hN, hcd, cross_norm_sq]; exact hs
    exact le_of_sq_le_sq h1 (norm_nonneg' _)
  have hN1 : N ≤ 16 / 15 := by
    have h1 : N ^ 2 ≤ (33 / 32 * (33 / 32)) ^ 2 := by
      rw [hN, hcd, cross_norm_sq]
      unfold Spec.gram
      rw [← norm_sq', ← norm_sq']
      have a1 := (abs_le.1 hl).2
      have a2 := (abs_le.1 hr).2
      have a3 : Spec.norm (Fl.vals l.direction) * Spec.norm (Fl.vals r.direction) ≤ 33 / 32 * (33 / 32) :=
        mul_le_mul (by change Spec.norm (Fl.vals l.direction) - 1 ≤ _ at a1; linarith)
          (by change Spec.norm (Fl.vals r.direction) - 1 ≤ _ at a2; linarith) (norm_nonneg' _) (by norm_num)
      have a4 := pow_le_pow_left₀ (mul_nonneg (norm_nonneg' _) (norm_nonneg' _)) a3 2
      rw [mul_pow] at a4
      have a5 := sq_nonneg (∑ i, Fl.vals l.direction i * Fl.vals r.direction i)
      linarith
    have h2 : N ≤ 33 / 32 * (33 / 32) := le_of_sq_le_sq h1 (by norm_num)
    refine h2.trans ?_
    norm_num
  -- the computed cross product and its length
  set N' := Spec.norm (Fl.vals c') with hN'
  have hNN : |N' - N| ≤ 7 * F.unit := (norm_sub_norm _ _).trans hc
  obtain ⟨m1, m2⟩ := abs_le.1 hNN
  have hN'1 : N' ≤ 6 / 5 := by linarith
  have hN'0 : 57 / 64 * N ≤ N' := by linarith
  have hN'u : F.unit ≤ N' := by linarith
  have huu : 0 ≤ F.unit * F.unit := by positivity
  have hlen := length_err c' hN'.symm (by linarith)
    (by
      have h1 : F.unit ^ 2 ≤ N' ^ 2 := pow_le_pow_left₀ hu0.le hN'u 2
      have h2 := mul_le_mul_of_nonneg_left h1 huu
      have e : F.unit ^ 4 = F.unit * F.unit * F.unit ^ 2 := by ring
      have h3 : 0 ≤ F.unit * F.unit * N' ^ 2 := by positivity
      linarith)
    (by
      have h2 := mul_le_mul_of_nonneg_left hN'u huu
      have h3 : F.unit ^ 4 ≤ F.unit * F.unit * F.unit := by
        have e : F.unit ^ 4 = F.unit * F.unit * F.unit * F.unit := by ring
        rw [e]
        exact mul_le_of_le_one_right (by positivity) (by linarith)
      linarith [mul_nonneg huu (hu0.le.trans hN'u)])
    (by push_cast; linarith)
  push_cast at hlen
  set S := (length c').1 with hS
  have hSN : |S - N| ≤ 13 * F.unit := by
    have h1 : |S - N| ≤ |S - N'| + |N' - N| := by
      rw [show S - N = (S - N') + (N' - N) by ring]; exact abs_add_le _ _
    have h2 : F.unit * N' ≤ F.unit * (6 / 5) := mul_le_mul_of_nonneg_left hN'1 hu0.le
    linarith
  obtain ⟨s1, s2⟩ := abs_le.1 hSN
  have hS1 : 51 / 64 * N ≤ S := by linarith
  have hS0 : 51 / 64 * s ≤ S := by linarith
  -- the scalar product
  set w : Vec ℝ 3 := fun i => (l.origin i).1 - (r.origin i).1 with hw
  have hdot := dot_abs (vsub l.origin r.origin) c' w (fun i => Fl.sub_rel _ _) hD htt
  set W := Spec.dist (fun i => (l.origin i).1) (fun i => (r.origin i).1) with hW
  have hWw : Spec.norm w = W := rfl
  rw [hWw, ← hN'] at hdot
  have hW0 : 0 ≤ W := dist_nonneg' _ _
  push_cast at hdot
  set a' := (dot (vsub l.origin r.origin) c').1 with ha'
  set a := ∑ i, w i * c i with ha
  have hdd : |∑ i, w i * (c' i).1 - a| ≤ W * (7 * F.unit) := by
    have e : ∑ i, w i * (c' i).1 - a = ∑ i, w i * (fun i => Fl.vals c' i - c i) i := by
      rw [ha, ← Finset.sum_sub_distrib]
      exact Finset.sum_congr rfl fun i _ => (mul_sub _ _ _).symm
    rw [e]
    exact (abs_dp_le _ _).trans (by rw [hWw]; exact mul_le_mul_of_nonneg_left hc hW0)
  have haa : |a' - a| ≤ 83 / 5 * (F.unit * W) + 10 * F.tiny := by
    have h1 : |a' - a| ≤ |a' - ∑ i, w i * (c' i).1| + |∑ i, w i * (c' i).1 - a| := by
      rw [show a' - a = (a' - ∑ i, w i * (c' i).1) + (∑ i, w i * (c' i).1 - a) by ring]; exact abs_add_le _ _
    have h2 : F.unit * W * N' ≤ F.unit * W * (6 / 5) := mul_le_mul_of_nonneg_left hN'1 (by positivity)
    linarith
  have haW : |a| ≤ W * N := (abs_dp_le w c).trans (by rw [hWw])
  have hN0 : 0 < N := by linarith
  have hSpos : 0 < S := by linarith
  set D := a / N with hDd
  have hDa : a = D * N := by rw [hDd]; field_simp
  have hDW : |D| ≤ W := by
    rw [hDd, abs_div, abs_of_pos hN0, div_le_iff₀ hN0]; exact haW
  have htω : F.tiny * (1 / s + 1) ≤ ω := by
    unfold FloatFormat.tiny
    split
    · rw [zero_mul]; exact hω0
    · next k hk => exact hω k hk
  have hω1 : F.tiny / s ≤ ω := by
    have e : F.tiny / s = F.tiny * (1 / s) := by ring
    linarith
  have hω2 : F.tiny ≤ ω := by
    have : 0 ≤ F.tiny * (1 / s) := by positivity
    linarith
  -- the quotient
  set x := a' / S with hx
  have hq : |x - D| ≤ 75 / 2 * (F.unit * (W / s)) + 13 * ω := by
    have e : (x - D) * S = (a' - a) - D * (S - N) := by rw [hx, hDa]; field_simp; ring
    have h1 : |x - D| * S ≤ |a' - a| + |D| * |S - N| := by
      rw [← abs_of_pos hSpos, ← abs_mul, e, ← abs_mul, abs_of_pos hSpos]
      exact abs_sub _ _
    have h2 : |D| * |S - N| ≤ W * (13 * F.unit) := mul_le_mul hDW hSN (abs_nonneg _) hW0
    have h3 : |x - D| * (51 / 64 * s) ≤ |x - D| * S := mul_le_mul_of_nonneg_left hS0 (abs_nonneg _)
    have h4 : |x - D| * s ≤ (75 / 2 * (F.unit * (W / s)) + 13 * (F.tiny / s)) * s := by
      have e2 : (75 / 2 * (F.unit * (W / s)) + 13 * (F.tiny / s)) * s = 75 / 2 * (F.unit * W) + 13 * F.tiny := by field_simp
      rw [e2]
      have : 0 ≤ F.unit * W := by positivity
      linarith
    have h5 := le_of_mul_le_mul_right h4 hs0
    linarith
  have hWs : W ≤ 16 / 15 * (W / s) := by
    rw [mul_div_assoc', le_div_iff₀ hs0]
    have := mul_le_mul_of_nonneg_left (hNs.trans hN1) hW0
    linarith
  have hWs0 : 0 ≤ W / s := by positivity
  have hxW : |x| ≤ 7 / 4 * (W / s) + 13 * ω := by
    have h1 : |x| ≤ |D| + |x - D| := by
      have := abs_sub_abs_le_abs_sub x D
      linarith
    have h2 : F.unit * (W / s) ≤ 1 / 512 * (W / s) := mul_le_mul_of_nonneg_right hu1 hWs0
    linarith
  have hv : (dot (vsub l.origin r.origin) c' / length c').1 = F.rnd x := Fl.val_div _ _
  have hB := F.err x
  refine ⟨dot (vsub l.origin r.origin) c' / length c', |a| / N, ?_, skew_distance _ _ _ _ hN0, ?_⟩
  · unfold distLineLine
    simp only [hone _ L1, hone _ R1, geoAssert_true, ok_bind]
    rw [← hc', hz _ (by rw [abs_of_pos hSpos]; linarith)]
    rfl
  · rw [hv]
    have h1 : |a| / N = |D| := by rw [hDd, abs_div, abs_of_pos hN0]
    rw [h1]
    refine (abs_abs_sub_abs_le _ _).trans ?_
    have h2 : |F.rnd x - D| ≤ |F.rnd x - x| + |x - D| := by
      rw [show F.rnd x - D = (F.rnd x - x) + (x - D) by ring]; exact abs_add_le _ _
    have h3 := mul_le_mul_of_nonneg_left hxW hu0.le
    have h4 : F.unit * ω ≤ 1 / 512 * ω := mul_le_mul_of_nonneg_right hu1 hω0
    have h5 : 0 ≤ F.unit * (W / s) := by positivity
    change _ ≤ 40 * (F.unit * (W / s)) + 15 * ω
    linarith

/-- **C113** Parallel lines: the distance computed is that of the origin of the first line to the second line. -/
theorem C113_distance_parallel (dbg : Bool) (l r : Line (Fl F) 3) (hp : 9 ≤ F.prec) (hmin : ∀ k, F.emin = some k → k ≤ -4 * (F.prec : ℤ))
    (hl : |Spec.norm (fun i => (l.direction i).1) - 1| ≤ η) (hr : |Spec.norm (fun i => (r.direction i).1) - 1| ≤ η) (hη : η ≤ 1 / 32)
    (hone : ∀ x : Fl F, |x.1 - 1| ≤ η + 6 * (2 : ℝ)⁻¹ ^ F.prec → isEq x 1 = true)
    (hpar : Spec.Parallel (fun i => (l.direction i).1) (fun i => (r.direction i).1))
    (hz : ∀ x : Fl F, |x.1| ≤ 8 * (2 : ℝ)⁻¹ ^ F.prec → isZero x = true)
    {ω : ℝ} (hω : 0 ≤ ω) (hω2 : ∀ k, F.emin = some k → 10 * (2 : ℝ) ^ k ≤ ω ^ 2) :
    ∃ v δ, distLineLine dbg l r = .ok v ∧
      Spec.IsDistance (Spec.line (fun i => (l.origin i).1) (fun i => (l.direction i).1))
        (Spec.line (fun i => (r.origin i).1) (fun i => (r.direction i).1)) δ ∧
      |v.1 - δ| ≤ 40 * ((2 : ℝ)⁻¹ ^ F.prec * Spec.dist (fun i => (l.origin i).1) (fun i => (r.origin i).1)) + 3 * ω := by
  obtain ⟨ht, hu1⟩ := tiny_small hmin hp
  have hu0 := F.unit_pos
  have ht0 := F.tiny_nonneg
  have hmin2 : ∀ k, F.emin = some k → k ≤ -2 * (F.prec : ℤ) := fun k hk => by have := hmin k hk; omega
  have htt := tiny_of_emin hmin2
  have hD : 64 * (3 + 2) ≤ 2 ^ F.prec := le_trans (by norm_num) (Nat.pow_le_pow_right (by norm_num) hp)
  have L1 := direction_length l.direction hp hmin hl hη
  have R1 := direction_length r.direction hp hmin hr hη
  obtain ⟨l1, l2⟩ := abs_le.1 hl
  obtain ⟨r1, r2⟩ := abs_le.1 hr
  have hc := direction_cross l.direction r.direction hp hmin (by change Spec.norm (Fl.vals l.direction) - 1 ≤ _ at l2; linarith)
    (by change Spec.norm (Fl.vals r.direction) - 1 ≤ _ at r2; linarith)
  have hc0 : cross (Fl.vals l.direction) (Fl.vals r.direction) = 0 := by
    funext i
    fin_cases i
    · exact sub_eq_zero.2 (hpar 1 2)
    · exact sub_eq_zero.2 (hpar 2 0)
    · exact sub_eq_zero.2 (hpar 0 1)
  rw [hc0, ← norm_eq_dist] at hc
  have hlen := length_abs (cross l.direction r.direction) hD htt
  have hroot : F.root 3 ≤ 4 * (F.unit * F.unit) := by
    refine root_le (by positivity) fun k hk => ?_
    have : F.tiny = (2 : ℝ) ^ k := by unfold FloatFormat.tiny; rw [hk]
    rw [← this]
    have e : (4 * (F.unit * F.unit)) ^ 2 = 16 * F.unit ^ 4 := by ring
    rw [e]
    push_cast
    linarith
  push_cast at hlen
  have h1 := norm_nonneg' (Fl.vals (cross l.direction r.direction))
  obtain ⟨v, hv, he⟩ := C104_point_line l.origin r hD hmin2 (by linarith) (by linarith) hω (fun k hk => by have := hω2 k hk; push_cast; linarith)
  refine ⟨distVecLine l.origin r, v, ?_, parallel_distance _ _ _ _ (vals_ne_zero (by linarith)) hpar hv, ?_⟩
  · unfold distLineLine
    simp only [hone _ L1, hone _ R1, geoAssert_true, ok_bind]
    rw [hz _ (by
      have h2 : 0 ≤ (length (cross l.direction r.direction)).1 := F.rounds.nonneg (Real.sqrt_nonneg _)
      rw [abs_of_nonneg h2]
      have h3 := (abs_le.1 hlen).2
      have h4 : F.unit * Spec.norm (Fl.vals (cross l.direction r.direction)) ≤ F.unit * (7 * F.unit) := mul_le_mul_of_nonneg_left hc hu0.le
      have h5 : F.unit * F.unit ≤ 1 / 512 * F.unit := mul_le_mul_of_nonneg_right hu1 hu0.le
      change _ ≤ 8 * F.unit
      linarith)]
    rfl
  · push_cast at he
    linarith
end

section Examples
attribute [local instance] tol64

theorem eighth64_val (n : ℤ) (h : |n| < 2 ^ 53) : (eighth64 n h).1 = (n : ℝ) / 8 := rfl
theorem fl64_val (n : ℤ) (h : |n| < 2 ^ 53) : (fl64 n h).1 = (n : ℝ) := rfl

/-- The line through the origin along (5, 6) meets the line x = 3 in (3, 18/5). -/
example : ∃ q, intersectLine2 ⟨![fl64 0, fl64 0], ![eighth64 5, eighth64 6]⟩ ⟨![fl64 3, fl64 4], ![fl64 0, fl64 1]⟩ = some q ∧ |(q 1).1 - 18 / 5| ≤ 1 / 10 ^ 11 := by
  have v1 : (fun i => ((![eighth64 5, eighth64 6] : Vec (Fl binary64) 2) i).1) = ![5 / 8, 6 / 8] := by
    funext i; fin_cases i <;> simp [eighth64_val]
  have v2 : (fun i => ((![fl64 0, fl64 1] : Vec (Fl binary64) 2) i).1) = ![0, 1] := by
    funext i; fin_cases i <;> simp [fl64_val]
  have v3 : (fun i => ((![fl64 0, fl64 0] : Vec (Fl binary64) 2) i).1) = ![0, 0] := by
    funext i; fin_cases i <;> simp [fl64_val]
  have v4 : (fun i => ((![fl64 3, fl64 4] : Vec (Fl binary64) 2) i).1) = ![3, 4] := by
    funext i; fin_cases i <;> simp [fl64_val]
  have n1 : 31 / 32 ≤ Spec.norm (![5 / 8, 6 / 8] : Vec ℝ 2) ∧ Spec.norm (![5 / 8, 6 / 8] : Vec ℝ 2) ≤ 1 := by
    unfold Spec.norm
    rw [Fin.sum_univ_two]
    constructor
    · apply Real.le_sqrt_of_sq_le; norm_num
    · rw [Real.sqrt_le_iff]; norm_num
  have n2 : Spec.norm (![0, 1] : Vec ℝ 2) = 1 := by simp [Spec.norm, Fin.sum_univ_two]
  obtain ⟨m1, m2⟩ := n1
  obtain ⟨q, x, h1, h2, h3, -⟩ := C113_line_2d ⟨![fl64 0, fl64 0], ![eighth64 5, eighth64 6]⟩ ⟨![fl64 3, fl64 4], ![fl64 0, fl64 1]⟩ Tol.eps
    (by show 9 ≤ 53; norm_num) emin64_lt
    (by simp only [v1]; exact abs_le.2 ⟨by linarith, by linarith⟩) (by simp only [v2, n2]; norm_num) (s := 1 / 2) (ω := 1 / 10 ^ 18) (by norm_num)
    (by
      simp only [v1]
      simp [eighth64_val, fl64_val]
      norm_num
      linarith)
    (by show 64 * (2 : ℝ)⁻¹ ^ 53 ≤ _; norm_num) (by norm_num) (emin64_mul (by norm_num)) (fun x h => isZero64 _ x (by linarith))
  refine ⟨q, h1, ?_⟩
  simp only [v1, v2, v3, v4] at h2 h3
  have hx : ![3, 18 / 5] ∈ ({x} : Set (Vec ℝ 2)) := by
    rw [← h2]
    refine ⟨⟨24 / 5, ?_⟩, ⟨-2 / 5, ?_⟩⟩
    · funext i; fin_cases i <;> (simp [Spec.pointAt]; norm_num)
    · funext i; fin_cases i <;> simp [Spec.pointAt]; norm_num
  obtain rfl : ![3, 18 / 5] = x := hx
  have hW : Spec.dist (![3, 4] : Vec ℝ 2) ![0, 0] = 5 := by
    unfold Spec.dist
    rw [Fin.sum_univ_two, show ((![3, 4] : Vec ℝ 2) 0 - (![0, 0] : Vec ℝ 2) 0) ^ 2 + ((![3, 4] : Vec ℝ 2) 1 - (![0, 0] : Vec ℝ 2) 1) ^ 2 = 5 ^ 2 by
      simp; norm_num]
    exact Real.sqrt_sq (by norm_num)
  have h := h3 1
  simp only [hW, Matrix.cons_val_one, Matrix.cons_val_zero] at h
  refine h.trans ?_
  have h4 := unit64'
  generalize (2 : ℝ)⁻¹ ^ binary64.prec = μ at h4 ⊢
  norm_num at h4 ⊢
  linarith

/-- Parallel lines. -/
example : intersectLine2 ⟨![fl64 0, fl64 0], ![eighth64 5, eighth64 6]⟩ ⟨![fl64 3, fl64 4], ![eighth64 (-5), eighth64 (-6)]⟩ = none := by
  refine C113_line_2d_none _ _ _ (by show 9 ≤ 53; norm_num) emin64 ?_ ?_ fun x h => ?_
  · unfold Spec.norm
    rw [Fin.sum_univ_two, Real.sqrt_le_iff]
    simp [eighth64_val]
    norm_num
  · unfold Spec.norm
    rw [Fin.sum_univ_two, Real.sqrt_le_iff]
    simp [eighth64_val]
    norm_num
  · simp [eighth64_val] at h
    have h4 := unit64'
    refine decide_eq_true ?_
    have e : (2 : ℝ) ^ binary64.prec = 2 ^ 53 := rfl
    rw [e] at h
    norm_num at h ⊢
    linarith

/-- Multiples of 2^-30. -/
noncomputable def fine64 (n : ℤ) (h : |n| < 2 ^ 53 := by norm_num) : Fl binary64 :=
  ⟨n / 2 ^ 30, n, -30, h, by intro k hk; cases hk; norm_num, by norm_num; ring⟩

theorem fine64_val (n : ℤ) (h : |n| < 2 ^ 53) : (fine64 n h).1 = (n : ℝ) / 2 ^ 30 := rfl

/-- Rounded (3/5, 4/5, 0) and (4/5, -3/5, 0). -/
noncomputable def along64 : Vec (Fl binary64) 3 := ![fine64 644245094, fine64 858993459, fl64 0]
noncomputable def across64 : Vec (Fl binary64) 3 := ![fine64 858993459, fine64 (-644245094), fl64 0]

theorem along64_vals : (fun i => (along64 i).1) = ![644245094 / 2 ^ 30, 858993459 / 2 ^ 30, 0] := by
  funext i; fin_cases i <;> simp [along64, fine64_val, fl64_val]
theorem across64_vals : (fun i => (across64 i).1) = ![858993459 / 2 ^ 30, -644245094 / 2 ^ 30, 0] := by
  funext i; fin_cases i <;> simp [across64, fine64_val, fl64_val]

theorem near_unit {a b c e : ℝ} (he : 0 ≤ e) (h1 : (1 - e) ^ 2 ≤ a ^ 2 + b ^ 2 + c ^ 2) (h2 : a ^ 2 + b ^ 2 + c ^ 2 ≤ (1 + e) ^ 2) :
    |Spec.norm (![a, b, c] : Vec ℝ 3) - 1| ≤ e := by
  unfold Spec.norm
  rw [Fin.sum_univ_three, abs_le]
  simp only [Matrix.cons_val_zero, Matrix.cons_val_one, Matrix.cons_val]
  have k1 := Real.le_sqrt_of_sq_le h1
  have k2 : Real.sqrt (a ^ 2 + b ^ 2 + c ^ 2) ≤ 1 + e := Real.sqrt_le_iff.2 ⟨by linarith, h2⟩
  constructor <;> linarith

theorem along64_unit : |Spec.norm (fun i => (along64 i).1) - 1| ≤ 1 / 10 ^ 8 := by
  rw [along64_vals]
  exact near_unit (by norm_num) (by norm_num) (by norm_num)
theorem across64_unit : |Spec.norm (fun i => (across64 i).1) - 1| ≤ 1 / 10 ^ 8 := by
  rw [across64_vals]
  exact near_unit (by norm_num) (by norm_num) (by norm_num)

theorem isEq64 (x : Fl binary64) (h : |x.1 - 1| ≤ 1 / 10 ^ 8 + 6 * (2 : ℝ)⁻¹ ^ binary64.prec) : isEq x 1 = true := by
  have h4 := unit64'
  generalize (2 : ℝ)⁻¹ ^ binary64.prec = μ at h h4
  refine decide_eq_true ?_
  show |x.1 - 1| < _
  norm_num at h h4 ⊢
  linarith

theorem gram64 : (1 / 2) ^ 2 ≤ Spec.gram (fun i => (along64 i).1) (fun i => (across64 i).1) := by
  rw [along64_vals, across64_vals]
  unfold Spec.gram
  simp only [Fin.sum_univ_three, Matrix.cons_val_zero, Matrix.cons_val_one, Matrix.cons_val]
  norm_num

/-- The skew lines through (0, 0, 0) and (7, 1, 3) have distance 3. -/
example : ∃ v, distLineLine true ⟨p64 0 0 0, along64⟩ ⟨p64 7 1 3, across64⟩ = .ok v ∧ |(|v.1|) - 3| ≤ 1 / 10 ^ 11 := by
  obtain ⟨v, δ, h1, h2, h3⟩ := C113_distance_skew (η := 1 / 10 ^ 8) true ⟨p64 0 0 0, along64⟩ ⟨p64 7 1 3, across64⟩ (by show 9 ≤ 53; norm_num) min64 along64_unit
    across64_unit (by norm_num) isEq64 (s := 1 / 2) (ω := 1 / 10 ^ 18) (by norm_num) gram64
    (by show 64 * (2 : ℝ)⁻¹ ^ 53 ≤ _; norm_num) (by norm_num) (emin64_mul (by norm_num)) (fun x h => isZero64 _ x (by linarith))
  refine ⟨v, h1, ?_⟩
  have hδ : δ = 3 := by
    have hc : cross (fun i => (along64 i).1) (fun i => (across64 i).1) = (![0, 0, -(644245094 ^ 2 + 858993459 ^ 2) / 2 ^ 60] : Vec ℝ 3) := by
      rw [along64_vals, across64_vals]
      funext i; fin_cases i <;> (simp [cross]; try norm_num)
    have hn := norm3 0 0 (-(644245094 ^ 2 + 858993459 ^ 2) / 2 ^ 60) ((644245094 ^ 2 + 858993459 ^ 2) / 2 ^ 60) (by norm_num) (by norm_num)
    have h := skew_distance (fun i => ((p64 0 0 0) i).1) (fun i => (along64 i).1) (fun i => ((p64 7 1 3) i).1) (fun i => (across64 i).1)
      (by rw [hc, hn]; norm_num)
    refine (h2.unique h).trans ?_
    rw [hc, hn, Fin.sum_univ_three]
    have e1 : ∀ i, ((p64 0 0 0) i).1 = (![0, 0, 0] : Vec ℝ 3) i := fun i => by simpa using congrFun (p64_vals 0 0 0 (by norm_num) (by norm_num) (by norm_num)) i
    have e2 : ∀ i, ((p64 7 1 3) i).1 = (![7, 1, 3] : Vec ℝ 3) i := fun i => by simpa using congrFun (p64_vals 7 1 3 (by norm_num) (by norm_num) (by norm_num)) i
    simp only [e1, e2, Matrix.cons_val_zero, Matrix.cons_val_one, Matrix.cons_val]
    norm_num
  have hW : Spec.dist (fun i => ((p64 0 0 0) i).1) (fun i => ((p64 7 1 3) i).1) ≤ 8 := by
    rw [p64_vals, p64_vals]
    unfold Spec.dist
    rw [Fin.sum_univ_three, Real.sqrt_le_iff]
    simp
    norm_num
  rw [hδ] at h3
  refine h3.trans ?_
  have h4 := unit64'
  have h40 : 0 ≤ (2 : ℝ)⁻¹ ^ binary64.prec := by positivity
  show 40 * ((2 : ℝ)⁻¹ ^ binary64.prec * (Spec.dist (fun i => ((p64 0 0 0) i).1) (fun i => ((p64 7 1 3) i).1) / (1 / 2))) + _ ≤ _
  generalize (2 : ℝ)⁻¹ ^ binary64.prec = μ at h4 h40 ⊢
  have h5 := mul_le_mul h4 hW (dist_nonneg' _ _) (by norm_num)
  norm_num at h5 ⊢
  linarith

/-- The parallel lines through (0, 0, 0) and (0, 0, 3) have distance 3. -/
example : ∃ v, distLineLine true ⟨p64 0 0 0, along64⟩ ⟨p64 0 0 3, along64⟩ = .ok v ∧ |v.1 - 3| ≤ 1 / 10 ^ 8 := by
  obtain ⟨v, δ, h1, h2, h3⟩ := C113_distance_parallel (η := 1 / 10 ^ 8) true ⟨p64 0 0 0, along64⟩ ⟨p64 0 0 3, along64⟩ (by show 9 ≤ 53; norm_num) min64 along64_unit
    along64_unit (by norm_num) isEq64 (fun i j => mul_comm _ _)
    (fun x h => by
      have h4 := unit64'
      generalize (2 : ℝ)⁻¹ ^ binary64.prec = μ at h h4
      refine decide_eq_true ?_
      norm_num at h h4 ⊢
      linarith) (ω := 1 / 10 ^ 9) (by norm_num) (fun k hk => by
      have := emin64' k hk
      norm_num at this ⊢
      linarith)
  refine ⟨v, h1, ?_⟩
  have e1 : (fun i => ((p64 0 0 0) i).1) = (![0, 0, 0] : Vec ℝ 3) := by simpa using p64_vals 0 0 0 (by norm_num) (by norm_num) (by norm_num)
  have e2 : (fun i => ((p64 0 0 3) i).1) = (![0, 0, 3] : Vec ℝ 3) := by simpa using p64_vals 0 0 3 (by norm_num) (by norm_num) (by norm_num)
  have hW : Spec.dist (![0, 0, 0] : Vec ℝ 3) ![0, 0, 3] = 3 := dist3 _ _ _ _ _ _ 3 (by norm_num) (by norm_num)
  simp only [e1, e2, along64_vals] at h2 h3
  have hδ : δ = 3 := by
    refine le_antisymm (hW ▸ h2.2 ⟨_, ⟨0, by funext i; simp [Spec.pointAt]⟩, _, ⟨0, by funext i; simp [Spec.pointAt]⟩, rfl⟩) ?_
    obtain ⟨_, ⟨t, rfl⟩, _, ⟨s, rfl⟩, h⟩ := h2.1
    rw [h]
    unfold Spec.dist
    refine Real.le_sqrt_of_sq_le ?_
    rw [Fin.sum_univ_three]
    simp only [Spec.pointAt, Matrix.cons_val_zero, Matrix.cons_val_one, Matrix.cons_val]
    nlinarith [sq_nonneg (0 + t * (644245094 / 2 ^ 30) - (0 + s * (644245094 / 2 ^ 30)) : ℝ), sq_nonneg (0 + t * (858993459 / 2 ^ 30) - (0 + s * (858993459 / 2 ^ 30)) : ℝ)]
  rw [hδ, hW] at h3
  refine h3.trans ?_
  have h4 := unit64'
  generalize (2 : ℝ)⁻¹ ^ binary64.prec = μ at h4 ⊢
  norm_num at h4 ⊢
  linarith
end Examples

end Verif
