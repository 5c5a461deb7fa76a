import Verif.Props.FloatAxisPlane

set_option linter.unusedSectionVars false

/-
C165: intersections with axis-parallel lines in the plane have an error that does not depend on the angle.
-/
namespace Verif
open Spec

section
variable {F : FloatFormat}

/-- A determinant with an axis-parallel second row has no rounding error: it is up to sign a coordinate of the first row. -/
theorem det_axis (u r : Vec (Fl F) 2) (a b : Fin 2) (hab : a ≠ b) (hs : (r b).1 = 1 ∨ (r b).1 = -1) (h0 : (r a).1 = 0) :
    (u 0 * r 1 - u 1 * r 0).1 = (if a = 0 then 1 else -1) * (r b).1 * (u a).1 ∧
    (u 0 * r 1 - r 0 * u 1).1 = (if a = 0 then 1 else -1) * (r b).1 * (u a).1 := by
  have hz : ∀ x y : Fl F, y.1 = 0 → (x * y).1 = 0 ∧ (y * x).1 = 0 := fun x y hy => by
    rw [Fl.val_mul, Fl.val_mul, hy, mul_zero, zero_mul, F.rounds.zero]; exact ⟨rfl, rfl⟩
  have hm : ∀ x y : Fl F, (x * y).1 = (y * x).1 := fun x y => by rw [Fl.val_mul, Fl.val_mul, mul_comm]
  have hx : ∀ x y : Fl F, F.rnd ((x * y).1 - 0) = (x * y).1 := fun x y => by rw [sub_zero]; exact F.rounds.exact (x * y).2
  have hx' : ∀ x y : Fl F, F.rnd (0 - (x * y).1) = -(x * y).1 := fun x y => by rw [zero_sub, F.rounds.odd, F.rounds.exact (x * y).2]
  rw [Fl.val_sub, Fl.val_sub]
  fin_cases a <;> fin_cases b
  · exact absurd rfl hab
  · have hs : (r 1).1 = 1 ∨ (r 1).1 = -1 := hs
    have h0 : (r 0).1 = 0 := h0
    rw [(hz (u 1) (r 0) h0).1, (hz (u 1) (r 0) h0).2, hx, mul_sign _ _ hs]
    simp [mul_comm]
  · have hs : (r 0).1 = 1 ∨ (r 0).1 = -1 := hs
    have h0 : (r 1).1 = 0 := h0
    rw [(hz (u 0) (r 1) h0).1, hm (r 0) (u 1), hx', mul_sign _ _ hs]
    simp [mul_comm]
  · exact absurd rfl hab

theorem quot_axis2 (u l r : Vec (Fl F) 2) (a b : Fin 2) (hab : a ≠ b) (hs : (r b).1 = 1 ∨ (r b).1 = -1) (h0 : (r a).1 = 0) :
    (u 0 * r 1 - u 1 * r 0) / (l 0 * r 1 - r 0 * l 1) = u a / l a := by
  apply Fl.ext
  rw [Fl.val_div, Fl.val_div, (det_axis u r a b hab hs h0).1, (det_axis l r a b hab hs h0).2]
  have : ((if a = 0 then 1 else -1) * (r b).1 : ℝ) ≠ 0 := by
    rcases hs with h | h <;> rw [h] <;> split <;> norm_num
  rw [mul_div_mul_left _ _ this]

/-- The only common point of a line and an axis-parallel one. -/
theorem line_line_axis (c n o d : Vec ℝ 2) (a b : Fin 2) (hab : a ≠ b) (hn : n b ≠ 0) (h0 : n a = 0) (hd : d a ≠ 0) :
    line o d ∩ line c n = {pointAt o d ((c a - o a) / d a)} := by
  ext p
  constructor
  · rintro ⟨⟨t, rfl⟩, t', h⟩
    have h1 : o a + t * d a = c a + t' * n a := congrFun h a
    rw [h0, mul_zero, add_zero] at h1
    have : t = (c a - o a) / d a := by rw [eq_div_iff hd]; linarith
    rw [this]; rfl
  · rintro rfl
    refine ⟨⟨_, rfl⟩, (o b + (c a - o a) / d a * d b - c b) / n b, ?_⟩
    funext i
    unfold pointAt
    by_cases hi : i = a
    · subst hi
      rw [h0, mul_zero, div_mul_cancel₀ _ hd]; ring
    · obtain rfl : i = b := by omega
      rw [div_mul_cancel₀ _ hn]; ring

variable [Tol (Fl F)]

/-- **C165** Whether a line meets an axis-parallel line in the plane is decided by one coordinate of its direction, without error. -/
theorem C165_decided (l : Line (Fl F) 2) (c n : Vec (Fl F) 2) (e : Fl F) (a b : Fin 2) (hab : a ≠ b) (hne : (n b).1 ≠ 0) (h0 : (n a).1 = 0)
    (hs : ∀ k, F.emin = some k → k + F.prec ≤ 1 ∧ (2 : ℝ) ^ ((k + F.prec) / 2) ≤ |(n b).1|)
    (hsym : ∀ x y : Fl F, |x.1| = |y.1| → Tol.isZero x e = Tol.isZero y e) :
    intersectLine2 l (Line.make c n) e = none ↔ Tol.isZero (l.direction a) e = true := by
  have h0' : ∀ i, i ≠ b → (n i).1 = 0 := fun i hi => by obtain rfl : i = a := by omega
                                                        exact h0
  obtain ⟨-, hsg, hz⟩ := normalize_axis hne h0' hs
  have hd : Tol.isZero (stdAbs (l.direction 0 * normalize n 1 - normalize n 0 * l.direction 1)) e = Tol.isZero (l.direction a) e := by
    refine hsym _ _ ?_
    rw [Fl.val_stdAbs, abs_abs, (det_axis l.direction (normalize n) a b hab hsg (hz a hab)).2, abs_mul, abs_mul]
    rcases hsg with h | h <;> rw [h] <;> split <;> simp
  unfold intersectLine2
  show (if Tol.isZero (stdAbs (l.direction 0 * normalize n 1 - normalize n 0 * l.direction 1)) e = true then none else some _) = none ↔ _
  rw [hd]
  split
  · rename_i h; simp [h]
  · rename_i h; simp [h]

/-- **C165** A point computed for a line of the plane and a line made along an axis is within `2^-prec (|x i| + 4 |x i - o i|)` of the only common
point `x` in both coordinates (`o` is the origin of the first line), up to underflow, at any angle. -/
theorem C165_line (hp : 4 ≤ F.prec) (l : Line (Fl F) 2) (c n : Vec (Fl F) 2) (e : Fl F) (a b : Fin 2) (hab : a ≠ b) (hne : (n b).1 ≠ 0) (h0 : (n a).1 = 0)
    (hs : ∀ k, F.emin = some k → k + F.prec ≤ 1 ∧ (2 : ℝ) ^ ((k + F.prec) / 2) ≤ |(n b).1|) (hd : (l.direction a).1 ≠ 0)
    (q : Vec (Fl F) 2) (hq : intersectLine2 l (Line.make c n) e = some q) :
    ∃ x, line (Fl.toReal l.origin) (Fl.toReal l.direction) ∩ line (Fl.toReal c) (Fl.toReal n) = {x} ∧
      ∀ i, |(q i).1 - x i| ≤ F.unit * (|x i| + 4 * |x i - (l.origin i).1|) + 2 * F.tiny * (1 + |(l.direction i).1|) := by
  have h0' : ∀ i, i ≠ b → (n i).1 = 0 := fun i hi => by obtain rfl : i = a := by omega
                                                        exact h0
  obtain ⟨-, hsg, hz⟩ := normalize_axis hne h0' hs
  refine ⟨_, line_line_axis (Fl.toReal c) (Fl.toReal n) (Fl.toReal l.origin) (Fl.toReal l.direction) a b hab hne h0 hd, fun i => ?_⟩
  unfold intersectLine2 at hq
  simp only at hq
  split at hq
  · cases hq
  · cases hq
    show |(l.origin i + l.direction i * ((vsub c l.origin 0 * normalize n 1 - vsub c l.origin 1 * normalize n 0) /
      (l.direction 0 * normalize n 1 - normalize n 0 * l.direction 1))).1 - _| ≤ _
    rw [quot_axis2 _ _ _ a b hab hsg (hz a hab)]
    have h := slab_point hp (l.origin i) (l.direction i) (c a) (l.origin a) (l.direction a) hd
    have ex : pointAt (Fl.toReal l.origin) (Fl.toReal l.direction) ((Fl.toReal c a - Fl.toReal l.origin a) / Fl.toReal l.direction a) i =
        (l.origin i).1 + (l.direction i).1 * (((c a).1 - (l.origin a).1) / (l.direction a).1) := by
      unfold pointAt Fl.toReal
      ring
    rw [ex]
    rw [add_sub_cancel_left]
    refine h.trans ?_
    have := mul_nonneg F.unit_pos.le (abs_nonneg ((l.direction i).1 * (((c a).1 - (l.origin a).1) / (l.direction a).1)))
    linarith

/-- **C165** Two lines along different axes: the computed point is `(c, o)` as soon as the difference of the coordinates is a floating point number,
and has the second coordinate `o` in any case. -/
theorem C165_cross (o d c n : Vec (Fl F) 2) (e : Fl F) (a b : Fin 2) (hab : a ≠ b) (hne : (n b).1 ≠ 0) (h0 : (n a).1 = 0)
    (hs : ∀ k, F.emin = some k → k + F.prec ≤ 1 ∧ (2 : ℝ) ^ ((k + F.prec) / 2) ≤ |(n b).1|) (hdne : (d a).1 ≠ 0) (hd0 : (d b).1 = 0)
    (hds : ∀ k, F.emin = some k → k + F.prec ≤ 1 ∧ (2 : ℝ) ^ ((k + F.prec) / 2) ≤ |(d a).1|)
    (hz : ∀ x : Fl F, |x.1| = 1 → Tol.isZero x e = false) :
    ∃ q, intersectLine2 (Line.make o d) (Line.make c n) e = some q ∧ q b = o b ∧ (q a).1 = F.rnd ((o a).1 + F.rnd ((c a).1 - (o a).1)) ∧
      (Representable F.prec F.emin ((c a).1 - (o a).1) → line (Fl.toReal o) (Fl.toReal d) ∩ line (Fl.toReal c) (Fl.toReal n) = {Fl.toReal q}) := by
  have hnz : ∀ i, i ≠ b → (n i).1 = 0 := fun i hi => by obtain rfl : i = a := by omega
                                                        exact h0
  have hdz : ∀ i, i ≠ a → (d i).1 = 0 := fun i hi => by obtain rfl : i = b := by omega
                                                        exact hd0
  obtain ⟨-, hsg, hnz'⟩ := normalize_axis hne hnz hs
  obtain ⟨-, hdg, hdz'⟩ := normalize_axis hdne hdz hds
  have hq := quot_axis2 (vsub c o) (normalize d) (normalize n) a b hab hsg (hnz' a hab)
  have hval : (vadd o (vscale (normalize d) ((vsub c o 0 * normalize n 1 - vsub c o 1 * normalize n 0) /
      (normalize d 0 * normalize n 1 - normalize n 0 * normalize d 1))) a).1 = F.rnd ((o a).1 + F.rnd ((c a).1 - (o a).1)) := by
    rw [hq]
    exact along_axis (o a) (c a) (normalize d a) hdg
  have hkeep : vadd o (vscale (normalize d) ((vsub c o 0 * normalize n 1 - vsub c o 1 * normalize n 0) /
      (normalize d 0 * normalize n 1 - normalize n 0 * normalize d 1))) b = o b := point_keeps o (normalize d) _ (hdz' b hab.symm)
  refine ⟨_, if_neg ?_, hkeep, hval, fun hrep => ?_⟩
  · rw [Bool.not_eq_true]
    refine hz _ ?_
    show |(stdAbs (normalize d 0 * normalize n 1 - normalize n 0 * normalize d 1)).1| = 1
    rw [Fl.val_stdAbs, abs_abs, (det_axis (normalize d) (normalize n) a b hab hsg (hnz' a hab)).2, abs_mul, abs_mul]
    rcases hsg with h | h <;> rcases hdg with h' | h' <;> rw [h, h'] <;> split <;> simp
  · rw [line_line_axis (Fl.toReal c) (Fl.toReal n) (Fl.toReal o) (Fl.toReal d) a b hab hne h0 hdne]
    congr 1
    funext i
    show (o i).1 + ((c a).1 - (o a).1) / (d a).1 * (d i).1 = _
    by_cases hi : i = a
    · subst hi
      rw [div_mul_cancel₀ _ hdne]
      refine Eq.trans ?_ hval.symm
      rw [F.rounds.exact hrep, add_sub_cancel, F.rounds.exact (c i).2]
    · obtain rfl : i = b := by omega
      rw [hd0, mul_zero, add_zero]
      exact congrArg Subtype.val hkeep.symm
end

section Examples
attribute [local instance] tol64

theorem up64 : ((![fl64 0, fl64 3] : Vec (Fl binary64) 2) 1).1 = 3 ∧ ((![fl64 0, fl64 3] : Vec (Fl binary64) 2) 0).1 = 0 := by simp [fl64_val]
theorem sym64 : ∀ x y : Fl binary64, |x.1| = |y.1| → Tol.isZero x Tol.eps = Tol.isZero y Tol.eps := fun x y h => by
  show decide (|x.1| < 1 / 10 ^ 6) = decide (|y.1| < 1 / 10 ^ 6)
  rw [h]

/-- A line along the second axis is parallel to the line x = 9. -/
example (o : Vec (Fl binary64) 2) : intersectLine2 ⟨o, ![fl64 0, fl64 1]⟩ (Line.make ![fl64 9, fl64 1] ![fl64 0, fl64 3]) = none := by
  obtain ⟨h1, h2⟩ := up64
  refine (C165_decided ⟨o, ![fl64 0, fl64 1]⟩ ![fl64 9, fl64 1] ![fl64 0, fl64 3] _ 0 1 (by decide) (by rw [h1]; norm_num) h2
    (axis_small64 (by rw [h1]; norm_num)) sym64).2 ?_
  refine decide_eq_true ?_
  simp [fl64_val]

/-- The line through (2, 0) along (1, 3), not a unit vector, and the line x = 9. -/
example : ∃ q, intersectLine2 ⟨![fl64 2, fl64 0], ![fl64 1, fl64 3]⟩ (Line.make ![fl64 9, fl64 1] ![fl64 0, fl64 3]) = some q ∧ |(q 1).1 - 21| ≤ 1 / 10 ^ 13 := by
  obtain ⟨h1, h2⟩ := up64
  have hs := axis_small64 (x := ((![fl64 0, fl64 3] : Vec (Fl binary64) 2) 1).1) (by rw [h1]; norm_num)
  cases hq : intersectLine2 ⟨![fl64 2, fl64 0], ![fl64 1, fl64 3]⟩ (Line.make ![fl64 9, fl64 1] ![fl64 0, fl64 3]) with
  | none =>
    have := (C165_decided ⟨![fl64 2, fl64 0], ![fl64 1, fl64 3]⟩ ![fl64 9, fl64 1] ![fl64 0, fl64 3] _ 0 1 (by decide) (by rw [h1]; norm_num) h2
      hs sym64).1 hq
    rw [isZero64 _ _ (by simp [fl64_val]; norm_num)] at this
    cases this
  | some q =>
    obtain ⟨x, hx, hb⟩ := C165_line (by show 4 ≤ 53; norm_num) ⟨![fl64 2, fl64 0], ![fl64 1, fl64 3]⟩ ![fl64 9, fl64 1] ![fl64 0, fl64 3] _ 0 1 (by decide)
      (by rw [h1]; norm_num) h2 hs (by simp [fl64_val]) q hq
    refine ⟨q, rfl, ?_⟩
    have hx' : x = ![9, 21] := by
      have : (![9, 21] : Vec ℝ 2) ∈ ({x} : Set _) := by
        rw [← hx]
        refine ⟨⟨7, ?_⟩, 20 / 3, ?_⟩ <;> funext i <;> fin_cases i <;> simp [pointAt, Fl.toReal, fl64_val] <;> norm_num
      exact (Set.mem_singleton_iff.1 this).symm
    have hb0 := hb 1
    rw [hx'] at hb0
    simp [fl64_val] at hb0
    refine hb0.trans ?_
    have g1 := tiny64
    have g2 : binary64.unit = (2 : ℝ)⁻¹ ^ 53 := rfl
    rw [g2] at g1 ⊢
    norm_num at g1 ⊢
    linarith

/-- The lines y = 2 and x = 9 meet in exactly (9, 2). -/
example : ∃ q, intersectLine2 (Line.make ![fl64 1, fl64 2] ![fl64 (-4), fl64 0]) (Line.make ![fl64 9, fl64 1] ![fl64 0, fl64 3]) = some q ∧ q 1 = fl64 2 ∧
    line (Fl.toReal ![fl64 1, fl64 2]) (Fl.toReal ![fl64 (-4), fl64 0]) ∩ line (Fl.toReal ![fl64 9, fl64 1]) (Fl.toReal ![fl64 0, fl64 3]) = {Fl.toReal q} := by
  obtain ⟨h1, h2⟩ := up64
  have e1 : ((![fl64 (-4), fl64 0] : Vec (Fl binary64) 2) 0).1 = -4 := by simp [fl64_val]
  obtain ⟨q, hq, hk, -, h⟩ := C165_cross ![fl64 1, fl64 2] ![fl64 (-4), fl64 0] ![fl64 9, fl64 1] ![fl64 0, fl64 3] Tol.eps 0 1 (by decide)
    (by rw [h1]; norm_num) h2 (axis_small64 (by rw [h1]; norm_num)) (by rw [e1]; norm_num) (by simp [fl64_val])
    (axis_small64 (by rw [e1]; norm_num)) (fun x hx => isZero64 _ x (by rw [hx]; norm_num))
  refine ⟨q, hq, hk, h ?_⟩
  have e : ((![fl64 9, fl64 1] : Vec (Fl binary64) 2) 0).1 - ((![fl64 1, fl64 2] : Vec (Fl binary64) 2) 0).1 = (fl64 8).1 := by simp [fl64_val]; norm_num
  rw [e]
  exact (fl64 8).2
end Examples
end Verif
