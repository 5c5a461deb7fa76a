import Verif.Props.FloatAxisDist
import Verif.Proofs.FloatSum
import Verif.Props.FloatKeep

set_option linter.unusedSectionVars false

/-
C164: intersections with axis-parallel planes have an error that does not depend on the angle.
-/
namespace Verif
open Spec

section
variable {F : FloatFormat}

theorem unit_sixteenth (hp : 4 ≤ F.prec) : F.unit ≤ 1 / 16 := by
  unfold FloatFormat.unit
  rw [inv_pow, show (1 / 16 : ℝ) = (2 ^ 4)⁻¹ by norm_num]
  exact inv_anti₀ (by norm_num) (pow_le_pow_right₀ (by norm_num) hp)

/-- A coordinate of `o + d * ((c - p) / g)`, computed. -/
theorem slab_point (hp : 4 ≤ F.prec) (o d c p g : Fl F) (hg : g.1 ≠ 0) :
    |(o + d * ((c - p) / g)).1 - (o.1 + d.1 * ((c.1 - p.1) / g.1))| ≤
      F.unit * (|o.1 + d.1 * ((c.1 - p.1) / g.1)| + 7 / 2 * |d.1 * ((c.1 - p.1) / g.1)|) + 2 * F.tiny * (1 + |d.1|) := by
  have hu0 := F.unit_pos
  have hu := unit_sixteenth hp
  have ht0 := F.tiny_nonneg
  have e1 := Fl.sub_rel c p
  have e2 := F.err ((c - p).1 / g.1)
  rw [← Fl.val_div] at e2
  have e3 := F.err (d.1 * ((c - p) / g).1)
  rw [← Fl.val_mul] at e3
  have e4 := Fl.add_rel o (d * ((c - p) / g))
  have hgp := abs_pos.2 hg
  generalize hs : (c - p).1 = s at e1 e2
  generalize ht : ((c - p) / g).1 = t at e2 e3
  generalize hw : (d * ((c - p) / g)).1 = w at e3 e4
  generalize hδ : c.1 - p.1 = δ at e1 ⊢
  have hE0 := abs_nonneg (d.1 * (δ / g.1))
  have hd0 := abs_nonneg d.1
  generalize hu' : F.unit = u at *
  generalize ht' : F.tiny = η at *
  -- the parameter
  have f1 : |s / g.1 - δ / g.1| ≤ u * |δ / g.1| := by
    rw [← sub_div, abs_div, abs_div, ← mul_div_assoc]
    exact div_le_div_of_nonneg_right e1 hgp.le
  generalize hτ : δ / g.1 = τ at f1 hE0 ⊢
  have hτ0 := abs_nonneg τ
  have f2 : |s / g.1| ≤ |τ| + u * |τ| := by
    have := abs_add_le (s / g.1 - τ) τ
    rw [sub_add_cancel] at this
    linarith
  have f3 : |t - τ| ≤ (2 * u + u * u) * |τ| + η := by
    have h1 := abs_add_le (t - s / g.1) (s / g.1 - τ)
    rw [sub_add_sub_cancel] at h1
    have h2 := mul_le_mul_of_nonneg_left f2 hu0.le
    linarith
  have f4 : |d.1 * t - d.1 * τ| ≤ (2 * u + u * u) * |d.1 * τ| + |d.1| * η := by
    rw [← mul_sub, abs_mul, abs_mul]
    have := mul_le_mul_of_nonneg_left f3 hd0
    linarith
  have f5 : |d.1 * t| ≤ (1 + 2 * u + u * u) * |d.1 * τ| + |d.1| * η := by
    have := abs_add_le (d.1 * t - d.1 * τ) (d.1 * τ)
    rw [sub_add_cancel] at this
    linarith
  generalize d.1 * τ = E at *
  generalize d.1 * t = Et at *
  have f6 : |w - E| ≤ (3 * u + 3 * (u * u) + u * (u * u)) * |E| + (1 + (1 + u) * |d.1|) * η := by
    have h1 := abs_add_le (w - Et) (Et - E)
    rw [sub_add_sub_cancel] at h1
    have h2 := mul_le_mul_of_nonneg_left f5 hu0.le
    linarith
  have f7 : |o.1 + w| ≤ |o.1 + E| + |w - E| := by
    have := abs_add_le (o.1 + E) (w - E)
    rwa [show o.1 + E + (w - E) = o.1 + w by ring] at this
  have f8 : |(o + d * ((c - p) / g)).1 - (o.1 + E)| ≤ u * |o.1 + E| + (1 + u) * |w - E| := by
    have h1 := abs_add_le ((o + d * ((c - p) / g)).1 - (o.1 + w)) (w - E)
    rw [show (o + d * ((c - p) / g)).1 - (o.1 + w) + (w - E) = (o + d * ((c - p) / g)).1 - (o.1 + E) by ring] at h1
    have h2 := mul_le_mul_of_nonneg_left f7 hu0.le
    linarith
  have f9 := mul_le_mul_of_nonneg_left f6 (show 0 ≤ 1 + u by linarith)
  have g1 : (1 + u) * (3 * u + 3 * (u * u) + u * (u * u)) ≤ u * (7 / 2) := by
    have a1 := mul_le_mul_of_nonneg_left hu hu0.le
    have a2 := mul_le_mul_of_nonneg_left a1 hu0.le
    have a3 := mul_le_mul_of_nonneg_left a2 hu0.le
    linarith
  have g2 : (1 + u) * (1 + (1 + u) * |d.1|) ≤ 2 * (1 + |d.1|) := by nlinarith
  have g3 := mul_le_mul_of_nonneg_right g1 hE0
  have g4 := mul_le_mul_of_nonneg_right g2 ht0
  linarith

/-- The scalar products with the stored normal and their quotient: the sign of the normal cancels. -/
theorem quot_axis (v w n : Vec (Fl F) 3) (a : Fin 3) (hs : (n a).1 = 1 ∨ (n a).1 = -1) (h0 : ∀ i, i ≠ a → (n i).1 = 0) :
    dot v n / dot w n = v a / w a := by
  apply Fl.ext
  rw [Fl.val_div, Fl.val_div, dot_axis_right v n a h0, dot_axis_right w n a h0, mul_sign _ _ hs, mul_sign _ _ hs]
  rcases hs with h | h <;> rw [h]
  · rw [mul_one, mul_one]
  · rw [mul_neg, mul_neg, neg_div_neg_eq, mul_one, mul_one]

theorem abs_dot_axis (w n : Vec (Fl F) 3) (a : Fin 3) (hs : (n a).1 = 1 ∨ (n a).1 = -1) (h0 : ∀ i, i ≠ a → (n i).1 = 0) : |(dot w n).1| = |(w a).1| := by
  rw [dot_axis_right w n a h0, mul_sign _ _ hs]
  rcases hs with h | h <;> rw [h] <;> simp

/-- The only common point of an axis-parallel plane and a line. -/
theorem plane_line_axis (c n o d : Vec ℝ 3) (a : Fin 3) (hn : n a ≠ 0) (h0 : ∀ i, i ≠ a → n i = 0) (hd : d a ≠ 0) :
    plane c n ∩ line o d = {pointAt o d ((c a - o a) / d a)} := by
  have hsum : ∀ p : Vec ℝ 3, (∑ i, (p i - c i) * n i) = (p a - c a) * n a := fun p =>
    Finset.sum_eq_single a (fun i _ hi => by rw [h0 i hi, mul_zero]) (fun h => absurd (Finset.mem_univ a) h)
  ext p
  constructor
  · rintro ⟨h1, t, rfl⟩
    have h1 : (∑ i, (pointAt o d t i - c i) * n i) = 0 := h1
    rw [hsum] at h1
    have h2 : pointAt o d t a - c a = 0 := (mul_eq_zero.1 h1).resolve_right hn
    have h3 : o a + t * d a - c a = 0 := h2
    have : t = (c a - o a) / d a := by rw [eq_div_iff hd]; linarith
    rw [this]; rfl
  · rintro rfl
    refine ⟨?_, _, rfl⟩
    show (∑ i, (pointAt o d ((c a - o a) / d a) i - c i) * n i) = 0
    rw [hsum]
    unfold pointAt
    rw [div_mul_cancel₀ _ hd]
    ring

variable [Tol (Fl F)]

/-- **C164** Whether a line meets an axis-parallel plane is decided by the coordinate of its direction along the normal, without error. -/
theorem C164_decided (c n : Vec (Fl F) 3) (l : Line (Fl F) 3) (e : Fl F) (a : Fin 3) (hne : (n a).1 ≠ 0) (h0 : ∀ i, i ≠ a → (n i).1 = 0)
    (hs : ∀ k, F.emin = some k → k + F.prec ≤ 1 ∧ (2 : ℝ) ^ ((k + F.prec) / 2) ≤ |(n a).1|)
    (hsym : ∀ x y : Fl F, |x.1| = |y.1| → Tol.isZero x e = Tol.isZero y e) :
    intersectPlaneLine (Plane.make c n) l e = none ↔ Tol.isZero (l.direction a) e = true := by
  obtain ⟨-, hsg, hz⟩ := normalize_axis hne h0 hs
  have hd : Tol.isZero (dot l.direction (normalize n)) e = Tol.isZero (l.direction a) e := hsym _ _ (abs_dot_axis _ _ a hsg hz)
  unfold intersectPlaneLine
  show (if Tol.isZero (dot l.direction (normalize n)) e = true then none else some _) = none ↔ _
  rw [hd]
  split
  · rename_i h; simp [h]
  · rename_i h; simp [h]

/-- **C164** A point computed for a plane made with a normal along an axis and any line is within `2^-prec (|x i| + 4 |x i - o i|)` of the only
common point `x` in every coordinate (`o` is the origin of the line), up to underflow: the angle has no influence. -/
theorem C164_line (hp : 4 ≤ F.prec) (c n : Vec (Fl F) 3) (l : Line (Fl F) 3) (e : Fl F) (a : Fin 3) (hne : (n a).1 ≠ 0) (h0 : ∀ i, i ≠ a → (n i).1 = 0)
    (hs : ∀ k, F.emin = some k → k + F.prec ≤ 1 ∧ (2 : ℝ) ^ ((k + F.prec) / 2) ≤ |(n a).1|) (hd : (l.direction a).1 ≠ 0)
    (q : Vec (Fl F) 3) (hq : intersectPlaneLine (Plane.make c n) l e = some q) :
    ∃ x, plane (Fl.toReal c) (Fl.toReal n) ∩ line (Fl.toReal l.origin) (Fl.toReal l.direction) = {x} ∧
      ∀ i, |(q i).1 - x i| ≤ F.unit * (|x i| + 4 * |x i - (l.origin i).1|) + 2 * F.tiny * (1 + |(l.direction i).1|) := by
  obtain ⟨-, hsg, hz⟩ := normalize_axis hne h0 hs
  refine ⟨_, plane_line_axis (Fl.toReal c) (Fl.toReal n) (Fl.toReal l.origin) (Fl.toReal l.direction) a hne h0 hd, fun i => ?_⟩
  unfold intersectPlaneLine at hq
  simp only at hq
  split at hq
  · cases hq
  · cases hq
    show |(l.origin i + l.direction i * (dot (vsub c l.origin) (normalize n) / dot l.direction (normalize n))).1 - _| ≤ _
    rw [quot_axis _ _ _ a hsg hz]
    have h := slab_point hp (l.origin i) (l.direction i) (c a) (l.origin a) (l.direction a) hd
    have ex : pointAt (Fl.toReal l.origin) (Fl.toReal l.direction) ((Fl.toReal c a - Fl.toReal l.origin a) / Fl.toReal l.direction a) i =
        (l.origin i).1 + (l.direction i).1 * (((c a).1 - (l.origin a).1) / (l.direction a).1) := by
      unfold pointAt Fl.toReal
      ring
    rw [ex]
    rw [add_sub_cancel_left]
    refine h.trans ?_
    have := mul_nonneg F.unit_pos.le (abs_nonneg ((l.direction i).1 * (((c a).1 - (l.origin a).1) / (l.direction a).1)))
    linarith

/-- **C164** ... and any ray. -/
theorem C164_ray (hp : 4 ≤ F.prec) (c n : Vec (Fl F) 3) (r : Ray (Fl F) 3) (e : Fl F) (a : Fin 3) (hne : (n a).1 ≠ 0) (h0 : ∀ i, i ≠ a → (n i).1 = 0)
    (hs : ∀ k, F.emin = some k → k + F.prec ≤ 1 ∧ (2 : ℝ) ^ ((k + F.prec) / 2) ≤ |(n a).1|) (hd : (r.direction a).1 ≠ 0)
    (q : Vec (Fl F) 3) (hq : intersectPlaneRay (Plane.make c n) r e = some q) :
    ∃ x, plane (Fl.toReal c) (Fl.toReal n) ∩ line (Fl.toReal r.origin) (Fl.toReal r.direction) = {x} ∧
      ∀ i, |(q i).1 - x i| ≤ F.unit * (|x i| + 4 * |x i - (r.origin i).1|) + 2 * F.tiny * (1 + |(r.direction i).1|) := by
  refine C164_line hp c n ⟨r.origin, r.direction⟩ e a hne h0 hs hd q ?_
  unfold intersectPlaneRay calcIntersectionParameter at hq
  unfold intersectPlaneLine
  simp only at hq ⊢
  split at hq
  · cases hq
  · rename_i t ht
    split at ht
    · cases ht
    · rename_i hz
      rw [if_neg hz]
      cases ht
      split at hq
      · exact hq
      · cases hq

/-- **C164** ... and any segment, whose direction is computed: 7 instead of 4. -/
theorem C164_segment (hp : 4 ≤ F.prec) (c n : Vec (Fl F) 3) (s : Segment (Fl F) 3) (e : Fl F) (a : Fin 3) (hne : (n a).1 ≠ 0)
    (h0 : ∀ i, i ≠ a → (n i).1 = 0) (hs : ∀ k, F.emin = some k → k + F.prec ≤ 1 ∧ (2 : ℝ) ^ ((k + F.prec) / 2) ≤ |(n a).1|)
    (hd : (s.source a).1 ≠ (s.target a).1) (q : Vec (Fl F) 3) (hq : intersectPlaneSegment (Plane.make c n) s e = some q) :
    ∃ x, plane (Fl.toReal c) (Fl.toReal n) ∩ line (Fl.toReal s.source) (fun i => (s.target i).1 - (s.source i).1) = {x} ∧
      ∀ i, |(q i).1 - x i| ≤ F.unit * (|x i| + 7 * |x i - (s.source i).1|) + 2 * F.tiny * (1 + 2 * |(s.target i).1 - (s.source i).1|) := by
  obtain ⟨-, hsg, hz⟩ := normalize_axis hne h0 hs
  have hd' : (s.target a).1 - (s.source a).1 ≠ 0 := sub_ne_zero.2 (Ne.symm hd)
  refine ⟨_, plane_line_axis (Fl.toReal c) (Fl.toReal n) (Fl.toReal s.source) (fun i => (s.target i).1 - (s.source i).1) a hne h0 hd', fun i => ?_⟩
  have hga : (s.target a - s.source a).1 ≠ 0 := fun h => hd ((Fl.sub_sign _ _).2.1 h).symm
  have hq : q = vadd s.source (vscale (vsub s.target s.source) (dot (vsub c s.source) (normalize n) / dot (vsub s.target s.source) (normalize n))) := by
    unfold intersectPlaneSegment calcIntersectionParameter at hq
    simp only at hq
    split at hq
    · cases hq
    · rename_i t ht
      split at ht
      · cases ht
      · cases ht
        split at hq
        · cases hq; rfl
        · cases hq
  have hq' : q i = s.source i + (s.target i - s.source i) * ((c a - s.source a) / (s.target a - s.source a)) := by
    rw [hq]
    show s.source i + (s.target i - s.source i) * _ = _
    rw [quot_axis _ _ _ a hsg hz]; rfl
  rw [hq']
  have h := slab_point hp (s.source i) (s.target i - s.source i) (c a) (s.source a) (s.target a - s.source a) hga
  have r1 := Fl.sub_rel (s.target i) (s.source i)
  have r2 := Fl.sub_rel (s.target a) (s.source a)
  show |_ - ((s.source i).1 + ((c a).1 - (s.source a).1) / ((s.target a).1 - (s.source a).1) * ((s.target i).1 - (s.source i).1))| ≤ 
    F.unit * (|((s.source i).1 + ((c a).1 - (s.source a).1) / ((s.target a).1 - (s.source a).1) * ((s.target i).1 - (s.source i).1))| +
     7 * |((s.source i).1 + ((c a).1 - (s.source a).1) / ((s.target a).1 - (s.source a).1) * ((s.target i).1 - (s.source i).1)) - (s.source i).1|) + _
  rw [add_sub_cancel_left]
  have hu0 := F.unit_pos
  have hu := unit_sixteenth hp
  have ht0 := F.tiny_nonneg
  generalize (s.source i + (s.target i - s.source i) * ((c a - s.source a) / (s.target a - s.source a))).1 = Q at *
  generalize (s.target i - s.source i).1 = di at *
  generalize (s.target a - s.source a).1 = da at *
  generalize (s.target i).1 - (s.source i).1 = Di at *
  generalize (s.target a).1 - (s.source a).1 = Da at *
  generalize (c a).1 - (s.source a).1 = δ at *
  generalize (s.source i).1 = o at *
  generalize F.unit = u at *
  generalize F.tiny = η at *
  have hDa := abs_pos.2 hd'
  have hda := abs_pos.2 hga
  have hda' : 15 / 16 * |Da| ≤ |da| := by
    have h1 := abs_add_le da (Da - da)
    rw [add_sub_cancel, abs_sub_comm Da da] at h1
    have := mul_le_mul_of_nonneg_right hu hDa.le
    linarith
  have hdi : |di| ≤ 17 / 16 * |Di| := by
    have h1 := abs_add_le (di - Di) Di
    rw [sub_add_cancel] at h1
    have := mul_le_mul_of_nonneg_right hu (abs_nonneg Di)
    linarith
  -- the exact point for the computed direction
  have k1 : |di * (δ / da) - δ / Da * Di| ≤ 32 / 15 * (u * |δ / Da * Di|) := by
    have e : di * (δ / da) - δ / Da * Di = δ / Da / da * ((di - Di) * Da - Di * (da - Da)) := by field_simp; ring
    rw [e, abs_mul]
    have k2 : |(di - Di) * Da - Di * (da - Da)| ≤ 2 * u * (|Di| * |Da|) := by
      have h1 := abs_sub ((di - Di) * Da) (Di * (da - Da))
      rw [abs_mul, abs_mul] at h1
      have h2 := mul_le_mul_of_nonneg_right r1 hDa.le
      have h3 := mul_le_mul_of_nonneg_left r2 (abs_nonneg Di)
      linarith
    refine (mul_le_mul_of_nonneg_left k2 (abs_nonneg _)).trans ?_
    rw [abs_div, abs_mul, div_mul_eq_mul_div, div_le_iff₀ hda]
    have h4 := mul_le_mul_of_nonneg_left hda' (show 0 ≤ 32 / 15 * (u * (|δ / Da| * |Di|)) by positivity)
    linarith
  have hE0 := abs_nonneg (δ / Da * Di)
  generalize δ / Da * Di = E at *
  generalize di * (δ / da) = E' at *
  have m1 : |E'| ≤ |E| + |E' - E| := by
    have := abs_add_le E (E' - E)
    rwa [add_sub_cancel] at this
  have m2 : |o + E'| ≤ |o + E| + |E' - E| := by
    have := abs_add_le (o + E) (E' - E)
    rwa [show o + E + (E' - E) = o + E' by ring] at this
  have m3 : |Q - (o + E)| ≤ |Q - (o + E')| + |E' - E| := by
    have := abs_add_le (Q - (o + E')) (E' - E)
    rwa [show Q - (o + E') + (E' - E) = Q - (o + E) by ring] at this
  have m4 := mul_le_mul_of_nonneg_left m1 hu0.le
  have m5 := mul_le_mul_of_nonneg_left m2 hu0.le
  have m6 := mul_le_mul_of_nonneg_left k1 hu0.le
  have m7 := mul_le_mul_of_nonneg_right hu (show 0 ≤ u * |E| by positivity)
  have m8 := mul_le_mul_of_nonneg_left hdi ht0
  have m9 := mul_nonneg ht0 (abs_nonneg Di)
  have m10 := mul_nonneg hu0.le hE0
  linarith

/-- A coordinate along a unit vector. -/
theorem along_axis (o c g : Fl F) (hg : g.1 = 1 ∨ g.1 = -1) : (o + g * ((c - o) / g)).1 = F.rnd (o.1 + F.rnd (c.1 - o.1)) := by
  have e1 : ((c - o) / g).1 = (c - o).1 * g.1 := by
    rw [Fl.val_div]
    rcases hg with h | h <;> rw [h]
    · rw [div_one, mul_one]; exact F.rounds.exact (c - o).2
    · rw [div_neg, div_one, F.rounds.odd, F.rounds.exact (c - o).2, mul_neg, mul_one]
  have e2 : (g * ((c - o) / g)).1 = (c - o).1 := by
    rw [Fl.val_mul, e1]
    rcases hg with h | h <;> rw [h]
    · rw [one_mul, mul_one]; exact F.rounds.exact (c - o).2
    · rw [mul_neg, mul_one, neg_mul_neg, one_mul]; exact F.rounds.exact (c - o).2
  rw [Fl.val_add, e2, Fl.val_sub]

/-- **C164** A line along the normal: the computed point differs from the origin in one coordinate, which is `o + (c - o)` computed; it is exactly the
common point if the difference `c - o` is a floating point number. -/
theorem C164_along (c n o d : Vec (Fl F) 3) (e : Fl F) (a : Fin 3) (hne : (n a).1 ≠ 0) (h0 : ∀ i, i ≠ a → (n i).1 = 0)
    (hs : ∀ k, F.emin = some k → k + F.prec ≤ 1 ∧ (2 : ℝ) ^ ((k + F.prec) / 2) ≤ |(n a).1|) (hdne : (d a).1 ≠ 0) (hd0 : ∀ i, i ≠ a → (d i).1 = 0)
    (hds : ∀ k, F.emin = some k → k + F.prec ≤ 1 ∧ (2 : ℝ) ^ ((k + F.prec) / 2) ≤ |(d a).1|)
    (hz : ∀ x : Fl F, |x.1| = 1 → Tol.isZero x e = false) :
    ∃ q, intersectPlaneLine (Plane.make c n) (Line.make o d) e = some q ∧ (∀ i, i ≠ a → q i = o i) ∧
      (q a).1 = F.rnd ((o a).1 + F.rnd ((c a).1 - (o a).1)) ∧
      (Representable F.prec F.emin ((c a).1 - (o a).1) → plane (Fl.toReal c) (Fl.toReal n) ∩ line (Fl.toReal o) (Fl.toReal d) = {Fl.toReal q}) := by
  obtain ⟨-, hsg, hnz⟩ := normalize_axis hne h0 hs
  obtain ⟨-, hdg, hdz⟩ := normalize_axis hdne hd0 hds
  have hval : (vadd o (vscale (normalize d) (dot (vsub c o) (normalize n) / dot (normalize d) (normalize n))) a).1 =
      F.rnd ((o a).1 + F.rnd ((c a).1 - (o a).1)) := by
    rw [quot_axis _ _ _ a hsg hnz]
    exact along_axis (o a) (c a) (normalize d a) hdg
  have hkeep : ∀ i, i ≠ a → vadd o (vscale (normalize d) (dot (vsub c o) (normalize n) / dot (normalize d) (normalize n))) i = o i :=
    fun i hi => point_keeps o (normalize d) _ (hdz i hi)
  refine ⟨_, if_neg ?_, hkeep, hval, fun hrep => ?_⟩
  · rw [Bool.not_eq_true]
    refine hz _ ((abs_dot_axis _ _ a hsg hnz).trans ?_)
    show |(normalize d a).1| = 1
    rcases hdg with h | h <;> rw [h] <;> simp
  · rw [plane_line_axis (Fl.toReal c) (Fl.toReal n) (Fl.toReal o) (Fl.toReal d) a hne h0 hdne]
    congr 1
    funext i
    show (o i).1 + ((c a).1 - (o a).1) / (d a).1 * (d i).1 = _
    by_cases hi : i = a
    · subst hi
      rw [div_mul_cancel₀ _ hdne]
      refine Eq.trans ?_ hval.symm
      rw [F.rounds.exact hrep, add_sub_cancel, F.rounds.exact (c i).2]
    · rw [hd0 i hi, mul_zero, add_zero]
      exact congrArg Subtype.val (hkeep i hi).symm
end

section Examples
attribute [local instance] tol64

theorem first64_facts : ((p64 1 0 0) 0).1 ≠ 0 ∧ 1 ≤ |((p64 1 0 0) 0).1| := by
  have h : ((p64 1 0 0) 0).1 = 1 := by simp [p64, fl64_val]
  rw [h]; norm_num

theorem first64_unit : normalize (p64 1 0 0) = p64 1 0 0 := by
  obtain ⟨h1, h3⟩ := first64_facts
  have h := C161_normalize (p64 1 0 0) 0 h1 first64_zero (axis_small64 h3)
  funext i
  apply Fl.ext
  refine (congrFun h i).trans ?_
  rw [p64_real, norm3 _ _ _ 1 (by norm_num) (by norm_num), div_one, ← p64_real]; rfl

/-- A line along (3, 4, 0) does not meet the plane z = 9. -/
example (l : Line (Fl binary64) 3) (hl : l.direction = p64 3 4 0) : intersectPlaneLine (Plane.make (p64 1 1 9) (p64 0 0 5)) l = none := by
  obtain ⟨h1, h2, h3⟩ := third64_facts 5 (by norm_num) (by norm_num)
  refine (C164_decided (p64 1 1 9) (p64 0 0 5) l _ 2 h1 h2 (axis_small64 h3) (fun x y h => ?_)).2 ?_
  · show decide (|x.1| < 1 / 10 ^ 6) = decide (|y.1| < 1 / 10 ^ 6)
    rw [h]
  · rw [hl]
    refine decide_eq_true ?_
    have : ((p64 3 4 0) 2).1 = 0 := by simp [p64, fl64_val]
    rw [this]; norm_num

/-- The plane z = 9 and the line through (0, 0, 2) along (3, 2, 1), which is not a unit vector. -/
example : ∃ q, intersectPlaneLine (Plane.make (p64 1 1 9) (p64 0 0 5)) ⟨p64 0 0 2, p64 3 2 1⟩ = some q ∧ |(q 0).1 - 21| ≤ 1 / 10 ^ 13 := by
  obtain ⟨h1, h2, h3⟩ := third64_facts 5 (by norm_num) (by norm_num)
  have e1 : ((p64 3 2 1) 2).1 = 1 := by simp [p64, fl64_val]
  have hd := C164_decided (p64 1 1 9) (p64 0 0 5) ⟨p64 0 0 2, p64 3 2 1⟩ Tol.eps 2 h1 h2 (axis_small64 h3) (fun x y h => by
    show decide (|x.1| < 1 / 10 ^ 6) = decide (|y.1| < 1 / 10 ^ 6)
    rw [h])
  cases hq : intersectPlaneLine (Plane.make (p64 1 1 9) (p64 0 0 5)) ⟨p64 0 0 2, p64 3 2 1⟩ with
  | none =>
    have := hd.1 hq
    rw [isZero64 _ _ (by show 1 / 10 ≤ |((p64 3 2 1) 2).1|; rw [e1]; norm_num)] at this
    cases this
  | some q =>
    obtain ⟨x, hx, hb⟩ := C164_line (by show 4 ≤ 53; norm_num) (p64 1 1 9) (p64 0 0 5) ⟨p64 0 0 2, p64 3 2 1⟩ _ 2 h1 h2 (axis_small64 h3)
      (by show ((p64 3 2 1) 2).1 ≠ 0; rw [e1]; norm_num) q hq
    refine ⟨q, rfl, ?_⟩
    have hx' : x = ![21, 14, 9] := by
      have : (![21, 14, 9] : Vec ℝ 3) ∈ ({x} : Set _) := by
        rw [← hx]
        show _ ∈ plane (Fl.toReal (p64 1 1 9)) (Fl.toReal (p64 0 0 5)) ∩ line (Fl.toReal (p64 0 0 2)) (Fl.toReal (p64 3 2 1))
        rw [p64_real, p64_real, p64_real, p64_real]
        refine ⟨?_, 7, ?_⟩
        · simp [plane, Fin.sum_univ_three]
        · funext i; fin_cases i <;> norm_num [pointAt]
      exact (Set.mem_singleton_iff.1 this).symm
    have hb0 := hb 0
    rw [hx'] at hb0
    have e2 : ((p64 0 0 2) 0).1 = 0 := by simp [p64, fl64_val]
    have e3 : ((p64 3 2 1) 0).1 = 3 := by simp [p64, fl64_val]
    have hb1 : |(q 0).1 - 21| ≤ binary64.unit * (|(21 : ℝ)| + 4 * |(21 : ℝ) - ((p64 0 0 2) 0).1|) + 2 * binary64.tiny * (1 + |((p64 3 2 1) 0).1|) := hb0
    rw [e2, e3, sub_zero, abs_of_pos (by norm_num : (0 : ℝ) < 21), abs_of_pos (by norm_num : (0 : ℝ) < 3)] at hb1
    refine hb1.trans ?_
    have g1 := tiny64
    have g2 : binary64.unit = (2 : ℝ)⁻¹ ^ 53 := rfl
    rw [g2] at g1 ⊢
    norm_num at g1 ⊢
    linarith

/-- The plane x = 4 and the ray from (1, 1, 7) along the first axis. -/
example : ∃ q, intersectPlaneRay (Plane.make (p64 4 3 1) (p64 1 0 0)) ⟨p64 1 1 7, p64 1 0 0⟩ = some q ∧
    ∃ x : Vec ℝ 3, ∀ i, |(q i).1 - x i| ≤ binary64.unit * (|x i| + 4 * |x i - ((p64 1 1 7) i).1|) + 2 * binary64.tiny * (1 + |((p64 1 0 0) i).1|) := by
  obtain ⟨h1, h3⟩ := first64_facts
  have hn := first64_unit
  obtain ⟨t, t1, t2⟩ := param64
  have h : ∃ q, intersectPlaneRay (Plane.make (p64 4 3 1) (p64 1 0 0)) ⟨p64 1 1 7, p64 1 0 0⟩ = some q := by
    unfold intersectPlaneRay Plane.make
    simp only
    rw [hn, t1]
    refine ⟨_, if_pos ?_⟩
    show decide ((0 : Fl binary64).1 < t.1 - 1 / 10 ^ 6) = true
    rw [t2, Fl.val_zero]
    norm_num
  obtain ⟨q, hq⟩ := h
  obtain ⟨x, -, hx⟩ := C164_ray (by show 4 ≤ 53; norm_num) (p64 4 3 1) (p64 1 0 0) ⟨p64 1 1 7, p64 1 0 0⟩ _ 0 h1 first64_zero (axis_small64 h3) h1 q hq
  exact ⟨q, hq, x, hx⟩

/-- The plane x = 4 and the segment from (1, 1, 0) to (4, 1, 4), whose end point is in the plane. -/
example : ∃ q, intersectPlaneSegment (Plane.make (p64 4 3 1) (p64 1 0 0)) ⟨p64 1 1 0, p64 4 1 4⟩ = some q ∧ |(q 2).1 - 4| ≤ 1 / 10 ^ 13 := by
  obtain ⟨q, hq⟩ := segment64_hit
  have hm : Plane.make (p64 4 3 1) (p64 1 0 0) = ⟨p64 4 3 1, p64 1 0 0⟩ := by unfold Plane.make; rw [first64_unit]
  rw [← hm] at hq
  refine ⟨q, hq, ?_⟩
  obtain ⟨h1, h3⟩ := first64_facts
  obtain ⟨x, hx, hb⟩ := C164_segment (by show 4 ≤ 53; norm_num) (p64 4 3 1) (p64 1 0 0) ⟨p64 1 1 0, p64 4 1 4⟩ _ 0 h1 first64_zero (axis_small64 h3)
    (by simp [p64, fl64_val]) q hq
  have hx' : x = ![4, 1, 4] := by
    have : (![4, 1, 4] : Vec ℝ 3) ∈ ({x} : Set _) := by
      rw [← hx]
      show _ ∈ plane (Fl.toReal (p64 4 3 1)) (Fl.toReal (p64 1 0 0)) ∩ line (Fl.toReal (p64 1 1 0)) _
      rw [p64_real, p64_real, p64_real]
      refine ⟨?_, 1, ?_⟩
      · simp [plane, Fin.sum_univ_three]
      · funext i; fin_cases i <;> norm_num [pointAt, p64, fl64_val]
    exact (Set.mem_singleton_iff.1 this).symm
  have hb0 := hb 2
  rw [hx'] at hb0
  have e2 : ((p64 1 1 0) 2).1 = 0 := by simp [p64, fl64_val]
  have e3 : ((p64 4 1 4) 2).1 = 4 := by simp [p64, fl64_val]
  have hb1 : |(q 2).1 - 4| ≤ binary64.unit * (|(4 : ℝ)| + 7 * |(4 : ℝ) - ((p64 1 1 0) 2).1|) +
    2 * binary64.tiny * (1 + 2 * |((p64 4 1 4) 2).1 - ((p64 1 1 0) 2).1|) := hb0
  rw [e2, e3, sub_zero, abs_of_pos (by norm_num : (0 : ℝ) < 4)] at hb1
  refine hb1.trans ?_
  have g1 := tiny64
  have g2 : binary64.unit = (2 : ℝ)⁻¹ ^ 53 := rfl
  rw [g2] at g1 ⊢
  norm_num at g1 ⊢
  linarith

/-- The plane x = 4 and the line through (1, 1, 7) along the first axis: the computed point is exactly (4, 1, 7). -/
example : ∃ q, intersectPlaneLine (Plane.make (p64 4 3 1) (p64 1 0 0)) (Line.make (p64 1 1 7) (p64 1 0 0)) = some q ∧
    plane (Fl.toReal (p64 4 3 1)) (Fl.toReal (p64 1 0 0)) ∩ line (Fl.toReal (p64 1 1 7)) (Fl.toReal (p64 1 0 0)) = {Fl.toReal q} := by
  obtain ⟨h1, h3⟩ := first64_facts
  obtain ⟨q, hq, -, -, h⟩ := C164_along (p64 4 3 1) (p64 1 0 0) (p64 1 1 7) (p64 1 0 0) Tol.eps 0 h1 first64_zero (axis_small64 h3) h1 first64_zero
    (axis_small64 h3) (fun x hx => isZero64 _ x (by rw [hx]; norm_num))
  refine ⟨q, hq, h ?_⟩
  have e : ((p64 4 3 1) 0).1 - ((p64 1 1 7) 0).1 = (fl64 3).1 := by simp [p64, fl64_val]; norm_num
  rw [e]
  exact (fl64 3).2
end Examples
end Verif
