import Verif.Props.FloatAxisPlane

set_option linter.unusedSectionVars false

/-
C166: axis-parallel rays and boxes.
-/
namespace Verif
open Spec

/-- A segment parallel to an axis. -/
theorem seg_axis (p q x : Vec ℝ 3) (a : Fin 3) (hpq : ∀ i, i ≠ a → p i = q i) :
    x ∈ segment p q ↔ (∀ i, i ≠ a → x i = p i) ∧ (p a ≤ x a ∧ x a ≤ q a ∨ q a ≤ x a ∧ x a ≤ p a) := by
  constructor
  · rintro ⟨t, h0, h1, rfl⟩
    refine ⟨fun i hi => by simp [hpq i hi], ?_⟩
    rcases le_total (p a) (q a) with h | h
    · exact .inl ⟨by nlinarith, by nlinarith⟩
    · exact .inr ⟨by nlinarith, by nlinarith⟩
  · rintro ⟨h1, h2⟩
    by_cases he : q a - p a = 0
    · refine ⟨0, le_refl _, zero_le_one, ?_⟩
      funext i
      by_cases hi : i = a
      · subst hi; rcases h2 with h | h <;> linarith
      · rw [h1 i hi]; ring
    · refine ⟨(x a - p a) / (q a - p a), ?_, ?_, ?_⟩
      · rcases h2 with h | h
        · exact div_nonneg (by linarith) (by linarith)
        · exact div_nonneg_of_nonpos (by linarith) (by linarith)
      · rcases h2 with h | h
        · exact (div_le_one (lt_of_le_of_ne (by linarith) (Ne.symm he))).2 (by linarith)
        · exact (div_le_one_of_neg (lt_of_le_of_ne (by linarith) he)).2 (by linarith)
      · funext i
        by_cases hi : i = a
        · subst hi; rw [div_mul_cancel₀ _ he]; ring
        · rw [h1 i hi, hpq i hi]; ring

/-- A ray parallel to an axis. -/
theorem ray_axis (o d x : Vec ℝ 3) (a : Fin 3) (hne : d a ≠ 0) (h0 : ∀ i, i ≠ a → d i = 0) :
    x ∈ ray o d ↔ (∀ i, i ≠ a → x i = o i) ∧ 0 ≤ (x a - o a) * d a := by
  constructor
  · rintro ⟨t, ht, rfl⟩
    refine ⟨fun i hi => by simp [pointAt, h0 i hi], ?_⟩
    show 0 ≤ (o a + t * d a - o a) * d a
    rw [show (o a + t * d a - o a) * d a = t * (d a * d a) by ring]
    exact mul_nonneg ht (mul_self_nonneg _)
  · rintro ⟨h1, h2⟩
    refine ⟨(x a - o a) / d a, ?_, ?_⟩
    · rw [show (x a - o a) / d a = (x a - o a) * d a / (d a * d a) by field_simp]
      exact div_nonneg h2 (mul_self_nonneg _)
    · funext i
      unfold pointAt
      by_cases hi : i = a
      · subst hi; rw [div_mul_cancel₀ _ hne]; ring
      · rw [h1 i hi, h0 i hi]; ring

section
variable {F : FloatFormat}

/-- The parameter of a face, computed without error but that of the difference. -/
theorem slab_value (x o g : Fl F) (hg : g.1 = 1 ∨ g.1 = -1) : ((x - o) * (1 / g)).1 = g.1 * (x - o).1 := by
  have h1 : F.rnd 1 = 1 := F.rounds.exact F.one_mem
  have hi : (1 / g).1 = g.1 := by
    rw [Fl.val_div, Fl.val_one]
    rcases hg with h | h <;> rw [h]
    · rw [div_one]; exact h1
    · rw [div_neg, div_one, F.rounds.odd, h1]
  rw [mul_sign _ _ (by rw [hi]; exact hg), hi, mul_comm]

theorem point_value (x o g t : Fl F) (hg : g.1 = 1 ∨ g.1 = -1) (ht : t.1 = g.1 * (x - o).1) : (o + g * t).1 = F.rnd (o.1 + F.rnd (x.1 - o.1)) := by
  have : (g * t).1 = (x - o).1 := by
    rw [Fl.val_mul, ht]
    rcases hg with h | h <;> rw [h]
    · rw [one_mul, one_mul]; exact F.rounds.exact (x - o).2
    · rw [neg_one_mul, neg_one_mul, neg_neg]; exact F.rounds.exact (x - o).2
  rw [Fl.val_add, this, Fl.val_sub]

variable [Tol (Fl F)] [HasLimits (Fl F)] {τ : ℝ}

/-- The slab along the ray. -/
theorem slab_along (o g lo hi near far : Fl F) (hz : isZero g = false) (hbox : lo.1 ≤ hi.1)
    (hnf : g.1 = 1 ∧ near = lo ∧ far = hi ∨ g.1 = -1 ∧ near = hi ∧ far = lo) :
    ∃ t t', raySlab o g lo hi = some (.fin t, .fin t') ∧ t.1 = g.1 * (near - o).1 ∧ t'.1 = g.1 * (far - o).1 := by
  have hg : g.1 = 1 ∨ g.1 = -1 := hnf.imp (·.1) (·.1)
  have v1 := slab_value lo o g hg
  have v2 := slab_value hi o g hg
  have hm : (lo - o).1 ≤ (hi - o).1 := by
    rw [Fl.val_sub, Fl.val_sub]
    exact F.rounds.mono (by linarith)
  unfold raySlab
  simp only [hz, Bool.false_eq_true, if_false]
  refine ⟨_, _, rfl, ?_, ?_⟩
  · unfold stdMin
    rcases hnf with ⟨h, rfl, rfl⟩ | ⟨h, rfl, rfl⟩
    · split
      · rename_i hlt
        have hlt : ((far - o) * (1 / g)).1 < ((near - o) * (1 / g)).1 := hlt
        rw [v1, v2, h] at hlt; linarith
      · exact v1
    · split
      · exact v2
      · rename_i hlt
        have hlt : ¬ ((near - o) * (1 / g)).1 < ((far - o) * (1 / g)).1 := hlt
        rw [v1, v2, h] at hlt; rw [v1, h]; linarith
  · unfold stdMax
    rcases hnf with ⟨h, rfl, rfl⟩ | ⟨h, rfl, rfl⟩
    · split
      · exact v2
      · rename_i hlt
        have hlt : ¬ ((near - o) * (1 / g)).1 < ((far - o) * (1 / g)).1 := hlt
        rw [v1, v2, h] at hlt; rw [v1, h]; linarith
    · split
      · rename_i hlt
        have hlt : ((far - o) * (1 / g)).1 < ((near - o) * (1 / g)).1 := hlt
        rw [v1, v2, h] at hlt; linarith
      · exact v1

/-- The slab across the ray. -/
theorem slab_across (o g lo hi : Fl F) (hτ : FlTol F τ) (hz0 : isZero (0 : Fl F) = true) (hg : g.1 = 0) (h1 : lo.1 ≤ o.1) (h2 : o.1 ≤ hi.1) :
    raySlab o g lo hi = some (.negInf, .posInf) := by
  obtain rfl : g = 0 := Fl.ext (hg.trans Fl.val_zero.symm)
  unfold raySlab
  simp [hz0, hτ.less _ _ h1, hτ.greater _ _ h2]

/-- The interval of an axis-parallel ray beside whose origin the box is not. -/
theorem interval_axis (hτ : FlTol F τ) (hz0 : isZero (0 : Fl F) = true) (r : Ray (Fl F) 3) (lo hi : Vec (Fl F) 3) (a : Fin 3) (near far : Fl F)
    (hz : isZero (r.direction a) = false) (h0 : ∀ i, i ≠ a → (r.direction i).1 = 0) (hbox : (lo a).1 ≤ (hi a).1)
    (hin : ∀ i, i ≠ a → (lo i).1 ≤ (r.origin i).1 ∧ (r.origin i).1 ≤ (hi i).1)
    (hnf : (r.direction a).1 = 1 ∧ near = lo a ∧ far = hi a ∨ (r.direction a).1 = -1 ∧ near = hi a ∧ far = lo a) :
    ∃ t t', aabbRayInterval r ⟨lo, hi⟩ = (.fin t, .fin t') ∧ t.1 = (r.direction a).1 * (near - r.origin a).1 ∧
      t'.1 = (r.direction a).1 * (far - r.origin a).1 := by
  obtain ⟨t, t', h, e1, e2⟩ := slab_along (r.origin a) (r.direction a) (lo a) (hi a) near far hz hbox hnf
  have hc : ∀ i, i ≠ a → raySlab (r.origin i) (r.direction i) (lo i) (hi i) = some (.negInf, .posInf) := fun i hi' =>
    slab_across _ _ _ _ hτ hz0 (h0 i hi') (hin i hi').1 (hin i hi').2
  refine ⟨t, t', ?_, e1, e2⟩
  unfold aabbRayInterval
  fin_cases a
  · have c1 := hc 1 (by decide); have c2 := hc 2 (by decide)
    have h : raySlab (r.origin 0) (r.direction 0) (lo 0) (hi 0) = _ := h
    simp only [h, c1, c2]
    rfl
  · have c1 := hc 0 (by decide); have c2 := hc 2 (by decide)
    have h : raySlab (r.origin 1) (r.direction 1) (lo 1) (hi 1) = _ := h
    simp only [h, c1, c2]
    rfl
  · have c1 := hc 0 (by decide); have c2 := hc 1 (by decide)
    have h : raySlab (r.origin 2) (r.direction 2) (lo 2) (hi 2) = _ := h
    simp only [h, c1, c2]
    rfl

/-- What `Ray.make` stores for a direction along an axis. -/
theorem ray_made (dbg : Bool) (o d : Vec (Fl F) 3) (a : Fin 3) (r : Ray (Fl F) 3) (hr : Ray.make dbg o d = .ok r) (hne : (d a).1 ≠ 0)
    (h0 : ∀ i, i ≠ a → (d i).1 = 0) (hs : ∀ k, F.emin = some k → k + F.prec ≤ 1 ∧ (2 : ℝ) ^ ((k + F.prec) / 2) ≤ |(d a).1|) :
    r.origin = o ∧ (∀ i, i ≠ a → (r.direction i).1 = 0) ∧ (0 < (d a).1 → (r.direction a).1 = 1) ∧ ((d a).1 < 0 → (r.direction a).1 = -1) := by
  obtain ⟨h1, -, h3⟩ := normalize_axis hne h0 hs
  have e : r = ⟨o, normalize d⟩ := by
    unfold Ray.make at hr
    cases hdbg : dbg <;> simp only [hdbg, geoAssert] at hr
    · cases hr; rfl
    · split at hr
      · cases hr
      · cases hr; rfl
  subst e
  refine ⟨rfl, h3, fun h => ?_, fun h => ?_⟩
  · show (normalize d a).1 = 1
    rw [h1, abs_of_pos h, div_self hne]
  · show (normalize d a).1 = -1
    rw [h1, abs_of_neg h, div_neg, div_self hne]

/-- **C166** A ray made along an axis, with a box in front of it: the test says yes and the points computed are those where it enters and leaves,
with the other coordinates kept and the coordinate along the ray `o + (face - o)` computed. If these differences are floating point numbers, the
points are exactly the ends of the common part of ray and box. -/
theorem C166_through (dbg : Bool) (o d lo hi : Vec (Fl F) 3) (a : Fin 3) (r : Ray (Fl F) 3) (hr : Ray.make dbg o d = .ok r) (hne : (d a).1 ≠ 0)
    (h0 : ∀ i, i ≠ a → (d i).1 = 0) (hs : ∀ k, F.emin = some k → k + F.prec ≤ 1 ∧ (2 : ℝ) ^ ((k + F.prec) / 2) ≤ |(d a).1|)
    (hτ : FlTol F τ) (hτ0 : 0 ≤ τ) (hz0 : isZero (0 : Fl F) = true) (hz1 : ∀ x : Fl F, |x.1| = 1 → isZero x = false)
    (hbox : (lo a).1 ≤ (hi a).1) (hin : ∀ i, i ≠ a → (lo i).1 ≤ (o i).1 ∧ (o i).1 ≤ (hi i).1) (near far : Fl F)
    (hnf : 0 < (d a).1 ∧ near = lo a ∧ far = hi a ∨ (d a).1 < 0 ∧ near = hi a ∧ far = lo a) (hfront : 0 ≤ (near.1 - (o a).1) * (d a).1)
    (hthick : F.rnd |near.1 - (o a).1| + τ ≤ F.rnd |far.1 - (o a).1|) :
    ∃ p q, intersectRayBox dbg r ⟨lo, hi⟩ = .ok ⟨some p, some q⟩ ∧ isIntersectingRayBox r ⟨lo, hi⟩ = true ∧
      (∀ i, i ≠ a → p i = o i ∧ q i = o i) ∧
      (p a).1 = F.rnd ((o a).1 + F.rnd (near.1 - (o a).1)) ∧ (q a).1 = F.rnd ((o a).1 + F.rnd (far.1 - (o a).1)) ∧
      (Representable F.prec F.emin (near.1 - (o a).1) → Representable F.prec F.emin (far.1 - (o a).1) →
        {x | x ∈ ray (Fl.toReal o) (Fl.toReal d) ∧ inBox (Fl.toReal lo) (Fl.toReal hi) 0 x} = segment (Fl.toReal p) (Fl.toReal q)) := by
  obtain ⟨rfl, k0, k1, k2⟩ := ray_made dbg o d a r hr hne h0 hs
  have hnf' : (r.direction a).1 = 1 ∧ near = lo a ∧ far = hi a ∨ (r.direction a).1 = -1 ∧ near = hi a ∧ far = lo a :=
    hnf.imp (fun h => ⟨k1 h.1, h.2⟩) (fun h => ⟨k2 h.1, h.2⟩)
  have hg : (r.direction a).1 = 1 ∨ (r.direction a).1 = -1 := hnf'.imp (·.1) (·.1)
  obtain ⟨t, t', hI, e1, e2⟩ := interval_axis hτ hz0 r lo hi a near far (hz1 _ (by rcases hg with h | h <;> rw [h] <;> simp)) k0 hbox hin hnf'
  -- the parameters are the computed distances
  have hn : 0 ≤ (r.direction a).1 * (near.1 - (r.origin a).1) ∧ 0 ≤ (r.direction a).1 * (far.1 - (r.origin a).1) := by
    rcases hnf with ⟨h, rfl, rfl⟩ | ⟨h, rfl, rfl⟩
    · rw [k1 h]
      have := nonneg_of_mul_nonneg_left hfront h
      constructor <;> linarith
    · rw [k2 h]
      have := nonpos_of_mul_nonneg_left hfront h
      constructor <;> linarith
  have hdist : ∀ x : Fl F, 0 ≤ (r.direction a).1 * (x.1 - (r.origin a).1) → (r.direction a).1 * (x - r.origin a).1 = F.rnd |x.1 - (r.origin a).1| := by
    intro x hx
    rw [Fl.val_sub]
    rcases hg with h | h <;> rw [h] at hx ⊢
    · rw [one_mul, abs_of_nonneg (by linarith)]
    · rw [neg_one_mul, ← F.rounds.odd, abs_of_nonpos (by linarith)]
  rw [hdist near hn.1] at e1
  rw [hdist far hn.2] at e2
  have t0 : 0 ≤ t.1 := by rw [e1]; exact F.rounds.nonneg (abs_nonneg _)
  have tt : t.1 + τ ≤ t'.1 := by rw [e1, e2]; exact hthick
  have q1 : isGreaterEq t t' = false := hτ.notGreaterEq _ _ tt
  have q2 : isGreaterEq t 0 = true := hτ.greaterEq _ _ (by rw [Fl.val_zero]; exact t0)
  have q3 : isGreaterEq t' 0 = true := hτ.greaterEq _ _ (by rw [Fl.val_zero]; linarith)
  have q4 : isLessEq t t' = true := hτ.lessEq _ _ (by linarith)
  have hp := point_value near (r.origin a) (r.direction a) t hg (by rw [e1, hdist near hn.1])
  have hq := point_value far (r.origin a) (r.direction a) t' hg (by rw [e2, hdist far hn.2])
  refine ⟨vadd r.origin (vscale r.direction t), vadd r.origin (vscale r.direction t'), ?_, ?_,
    fun i hi => ⟨point_keeps _ _ _ (k0 i hi), point_keeps _ _ _ (k0 i hi)⟩, hp, hq, fun r1 r2 => ?_⟩
  · unfold intersectRayBox ordinateToPoint
    rw [hI]
    simp only [Ext.isGreaterEq, q1, q2, q3, geoAssert_true]
    rfl
  · unfold isIntersectingRayBox
    rw [hI]
    simp only [Ext.isGreaterEq, Ext.isLessEq, q3, q4, Bool.and_self]
  · have hpa : Fl.toReal (vadd r.origin (vscale r.direction t)) a = near.1 := by
      refine Eq.trans hp ?_
      rw [F.rounds.exact r1, add_sub_cancel, F.rounds.exact near.2]
    have hqa : Fl.toReal (vadd r.origin (vscale r.direction t')) a = far.1 := by
      refine Eq.trans hq ?_
      rw [F.rounds.exact r2, add_sub_cancel, F.rounds.exact far.2]
    have hpi : ∀ (u : Fl F) i, i ≠ a → Fl.toReal (vadd r.origin (vscale r.direction u)) i = Fl.toReal r.origin i := fun u i hi =>
      congrArg Subtype.val (point_keeps _ _ _ (k0 i hi))
    ext x
    rw [seg_axis _ _ _ a fun i hi => by rw [hpi t i hi, hpi t' i hi], hpa, hqa]
    show x ∈ ray (Fl.toReal r.origin) (Fl.toReal d) ∧ inBox (Fl.toReal lo) (Fl.toReal hi) 0 x ↔ _
    rw [ray_axis (Fl.toReal r.origin) (Fl.toReal d) x a hne h0]
    constructor
    · rintro ⟨⟨x1, x2⟩, x3⟩
      refine ⟨fun i hi => by rw [hpi t i hi]; exact x1 i hi, ?_⟩
      have x3 : (lo a).1 - 0 ≤ x a ∧ x a ≤ (hi a).1 + 0 := x3 a
      rcases hnf with ⟨h, rfl, rfl⟩ | ⟨h, rfl, rfl⟩
      · exact .inl ⟨by linarith, by linarith⟩
      · exact .inr ⟨by linarith, by linarith⟩
    · rintro ⟨x1, x2⟩
      have x1 : ∀ i, i ≠ a → x i = Fl.toReal r.origin i := fun i hi => (x1 i hi).trans (hpi t i hi)
      have x4 : (lo a).1 ≤ x a ∧ x a ≤ (hi a).1 := by
        rcases hnf with ⟨h, rfl, rfl⟩ | ⟨h, rfl, rfl⟩ <;> rcases x2 with x2 | x2 <;> constructor <;> linarith
      refine ⟨⟨x1, ?_⟩, fun i => ?_⟩
      · show 0 ≤ (x a - (r.origin a).1) * (d a).1
        rcases hnf with ⟨h, rfl, rfl⟩ | ⟨h, rfl, rfl⟩
        · rw [k1 h] at hn
          exact mul_nonneg (by linarith) h.le
        · rw [k2 h] at hn
          exact mul_nonneg_of_nonpos_of_nonpos (by linarith) h.le
      · show (lo i).1 - 0 ≤ x i ∧ x i ≤ (hi i).1 + 0
        by_cases hia : i = a
        · subst hia; constructor <;> linarith
        · obtain ⟨y1, y2⟩ := hin i hia
          rw [show x i = (r.origin i).1 from x1 i hia]
          constructor <;> linarith

/-- **C166** ... and with its origin inside the box, farther from the face behind it than the tolerance: only the point where it leaves is reported, and
the common part of ray and box is exactly the segment from the origin to it if the difference is a floating point number. -/
theorem C166_inside (dbg : Bool) (o d lo hi : Vec (Fl F) 3) (a : Fin 3) (r : Ray (Fl F) 3) (hr : Ray.make dbg o d = .ok r) (hne : (d a).1 ≠ 0)
    (h0 : ∀ i, i ≠ a → (d i).1 = 0) (hs : ∀ k, F.emin = some k → k + F.prec ≤ 1 ∧ (2 : ℝ) ^ ((k + F.prec) / 2) ≤ |(d a).1|)
    (hτ : FlTol F τ) (hτ0 : 0 ≤ τ) (hz0 : isZero (0 : Fl F) = true) (hz1 : ∀ x : Fl F, |x.1| = 1 → isZero x = false)
    (hbox : (lo a).1 ≤ (hi a).1) (hin : ∀ i, (lo i).1 ≤ (o i).1 ∧ (o i).1 ≤ (hi i).1) (near far : Fl F)
    (hnf : 0 < (d a).1 ∧ near = lo a ∧ far = hi a ∨ (d a).1 < 0 ∧ near = hi a ∧ far = lo a) (hback : τ ≤ F.rnd |near.1 - (o a).1|) :
    ∃ q, intersectRayBox dbg r ⟨lo, hi⟩ = .ok ⟨none, some q⟩ ∧ isIntersectingRayBox r ⟨lo, hi⟩ = true ∧ (∀ i, i ≠ a → q i = o i) ∧
      (q a).1 = F.rnd ((o a).1 + F.rnd (far.1 - (o a).1)) ∧
      (Representable F.prec F.emin (far.1 - (o a).1) →
        {x | x ∈ ray (Fl.toReal o) (Fl.toReal d) ∧ inBox (Fl.toReal lo) (Fl.toReal hi) 0 x} = segment (Fl.toReal o) (Fl.toReal q)) := by
  obtain ⟨rfl, k0, k1, k2⟩ := ray_made dbg o d a r hr hne h0 hs
  have hnf' : (r.direction a).1 = 1 ∧ near = lo a ∧ far = hi a ∨ (r.direction a).1 = -1 ∧ near = hi a ∧ far = lo a :=
    hnf.imp (fun h => ⟨k1 h.1, h.2⟩) (fun h => ⟨k2 h.1, h.2⟩)
  have hg : (r.direction a).1 = 1 ∨ (r.direction a).1 = -1 := hnf'.imp (·.1) (·.1)
  obtain ⟨t, t', hI, e1, e2⟩ := interval_axis hτ hz0 r lo hi a near far (hz1 _ (by rcases hg with h | h <;> rw [h] <;> simp)) k0 hbox
    (fun i _ => hin i) hnf'
  obtain ⟨i1, i2⟩ := hin a
  have hdist : (r.direction a).1 * (near - r.origin a).1 = -F.rnd |near.1 - (r.origin a).1| ∧ 0 ≤ (r.direction a).1 * (far - r.origin a).1 := by
    rw [Fl.val_sub, Fl.val_sub]
    rcases hnf' with ⟨h, rfl, rfl⟩ | ⟨h, rfl, rfl⟩ <;> rw [h]
    · rw [one_mul, one_mul, abs_of_nonpos (by linarith), ← F.rounds.odd, neg_neg]
      exact ⟨rfl, F.rounds.nonneg (by linarith)⟩
    · rw [neg_one_mul, neg_one_mul, abs_of_nonneg (by linarith), ← F.rounds.odd ((lo a).1 - _)]
      exact ⟨rfl, F.rounds.nonneg (by linarith)⟩
  have t0 : t.1 + τ ≤ 0 := by rw [e1, hdist.1]; linarith
  have t1 : 0 ≤ t'.1 := by rw [e2]; exact hdist.2
  have q1 : isGreaterEq t t' = false := hτ.notGreaterEq _ _ (by linarith)
  have q2 : isGreaterEq t 0 = false := hτ.notGreaterEq _ _ (by rw [Fl.val_zero]; exact t0)
  have q3 : isGreaterEq t' 0 = true := hτ.greaterEq _ _ (by rw [Fl.val_zero]; linarith)
  have q4 : isLessEq t t' = true := hτ.lessEq _ _ (by linarith)
  have hq := point_value far (r.origin a) (r.direction a) t' hg e2
  refine ⟨vadd r.origin (vscale r.direction t'), ?_, ?_, fun i hi => point_keeps _ _ _ (k0 i hi), hq, fun r2 => ?_⟩
  · unfold intersectRayBox ordinateToPoint
    rw [hI]
    simp only [Ext.isGreaterEq, q1, q2, q3, geoAssert_true]
    rfl
  · unfold isIntersectingRayBox
    rw [hI]
    simp only [Ext.isGreaterEq, Ext.isLessEq, q3, q4, Bool.and_self]
  · have hqa : Fl.toReal (vadd r.origin (vscale r.direction t')) a = far.1 := by
      refine Eq.trans hq ?_
      rw [F.rounds.exact r2, add_sub_cancel, F.rounds.exact far.2]
    have hqi : ∀ i, i ≠ a → Fl.toReal (vadd r.origin (vscale r.direction t')) i = Fl.toReal r.origin i := fun i hi =>
      congrArg Subtype.val (point_keeps _ _ _ (k0 i hi))
    ext x
    rw [seg_axis _ _ _ a fun i hi => (hqi i hi).symm, hqa]
    show x ∈ ray (Fl.toReal r.origin) (Fl.toReal d) ∧ inBox (Fl.toReal lo) (Fl.toReal hi) 0 x ↔
      _ ∧ ((r.origin a).1 ≤ x a ∧ x a ≤ far.1 ∨ far.1 ≤ x a ∧ x a ≤ (r.origin a).1)
    rw [ray_axis (Fl.toReal r.origin) (Fl.toReal d) x a hne h0]
    constructor
    · rintro ⟨⟨x1, x2⟩, x3⟩
      refine ⟨x1, ?_⟩
      have x2 : 0 ≤ (x a - (r.origin a).1) * (d a).1 := x2
      have x3 : (lo a).1 - 0 ≤ x a ∧ x a ≤ (hi a).1 + 0 := x3 a
      rcases hnf with ⟨h, rfl, rfl⟩ | ⟨h, rfl, rfl⟩
      · have := nonneg_of_mul_nonneg_left x2 h
        exact .inl ⟨by linarith, by linarith⟩
      · have := nonpos_of_mul_nonneg_left x2 h
        exact .inr ⟨by linarith, by linarith⟩
    · rintro ⟨x1, x2⟩
      have x4 : ((lo a).1 ≤ x a ∧ x a ≤ (hi a).1) ∧ 0 ≤ (x a - (r.origin a).1) * (d a).1 := by
        rcases hnf with ⟨h, rfl, rfl⟩ | ⟨h, rfl, rfl⟩
        · have : (r.origin a).1 ≤ x a := by rcases x2 with x2 | x2 <;> linarith
          exact ⟨by rcases x2 with x2 | x2 <;> constructor <;> linarith, mul_nonneg (by linarith) h.le⟩
        · have : x a ≤ (r.origin a).1 := by rcases x2 with x2 | x2 <;> linarith
          exact ⟨by rcases x2 with x2 | x2 <;> constructor <;> linarith, mul_nonneg_of_nonpos_of_nonpos (by linarith) h.le⟩
      refine ⟨⟨x1, x4.2⟩, fun i => ?_⟩
      show (lo i).1 - 0 ≤ x i ∧ x i ≤ (hi i).1 + 0
      by_cases hia : i = a
      · subst hia; obtain ⟨⟨y1, y2⟩, -⟩ := x4; constructor <;> linarith
      · obtain ⟨y1, y2⟩ := hin i
        rw [show x i = (r.origin i).1 from x1 i hia]
        constructor <;> linarith

/-- **C166** ... and with the box behind its origin, farther than the tolerance: neither function reports anything, and indeed there is no common point. -/
theorem C166_behind (dbg : Bool) (o d lo hi : Vec (Fl F) 3) (a : Fin 3) (r : Ray (Fl F) 3) (hr : Ray.make dbg o d = .ok r) (hne : (d a).1 ≠ 0)
    (h0 : ∀ i, i ≠ a → (d i).1 = 0) (hs : ∀ k, F.emin = some k → k + F.prec ≤ 1 ∧ (2 : ℝ) ^ ((k + F.prec) / 2) ≤ |(d a).1|)
    (hτ : FlTol F τ) (hτ0 : 0 < τ) (hz0 : isZero (0 : Fl F) = true) (hz1 : ∀ x : Fl F, |x.1| = 1 → isZero x = false)
    (hbox : (lo a).1 ≤ (hi a).1) (hin : ∀ i, i ≠ a → (lo i).1 ≤ (o i).1 ∧ (o i).1 ≤ (hi i).1) (far : Fl F)
    (hnf : 0 < (d a).1 ∧ far = hi a ∨ (d a).1 < 0 ∧ far = lo a) (hbehind : (far.1 - (o a).1) * (d a).1 ≤ 0)
    (hgap : τ ≤ F.rnd |far.1 - (o a).1|) :
    intersectRayBox dbg r ⟨lo, hi⟩ = .ok ⟨none, none⟩ ∧ isIntersectingRayBox r ⟨lo, hi⟩ = false ∧
      ∀ x, x ∈ ray (Fl.toReal o) (Fl.toReal d) → ¬ inBox (Fl.toReal lo) (Fl.toReal hi) 0 x := by
  obtain ⟨rfl, k0, k1, k2⟩ := ray_made dbg o d a r hr hne h0 hs
  obtain ⟨near, hnf'⟩ : ∃ near, (r.direction a).1 = 1 ∧ near = lo a ∧ far = hi a ∨ (r.direction a).1 = -1 ∧ near = hi a ∧ far = lo a := by
    rcases hnf with h | h
    · exact ⟨lo a, .inl ⟨k1 h.1, rfl, h.2⟩⟩
    · exact ⟨hi a, .inr ⟨k2 h.1, rfl, h.2⟩⟩
  have hg : (r.direction a).1 = 1 ∨ (r.direction a).1 = -1 := hnf'.imp (·.1) (·.1)
  obtain ⟨t, t', hI, e1, e2⟩ := interval_axis hτ hz0 r lo hi a near far (hz1 _ (by rcases hg with h | h <;> rw [h] <;> simp)) k0 hbox hin hnf'
  have hf : (r.direction a).1 * (far.1 - (r.origin a).1) ≤ 0 := by
    rcases hnf with ⟨h, -⟩ | ⟨h, -⟩
    · rw [k1 h]
      have := nonpos_of_mul_nonpos_left hbehind h
      linarith
    · rw [k2 h]
      have := nonneg_of_mul_nonpos_left hbehind h
      linarith
  have hfar : t'.1 = -F.rnd |far.1 - (r.origin a).1| := by
    rw [e2, Fl.val_sub]
    rcases hg with h | h <;> rw [h] at hf ⊢
    · rw [one_mul, abs_of_nonpos (by linarith), F.rounds.odd, neg_neg]
    · rw [neg_one_mul, abs_of_nonneg (by linarith)]
  have htt : t.1 ≤ t'.1 := by
    rw [e1, e2, Fl.val_sub, Fl.val_sub]
    rcases hnf' with ⟨h, rfl, rfl⟩ | ⟨h, rfl, rfl⟩ <;> rw [h]
    · rw [one_mul, one_mul]; exact F.rounds.mono (by linarith)
    · rw [neg_one_mul, neg_one_mul]; exact neg_le_neg (F.rounds.mono (by linarith))
  have q2 : isGreaterEq t 0 = false := hτ.notGreaterEq _ _ (by rw [Fl.val_zero]; linarith)
  have q3 : isGreaterEq t' 0 = false := hτ.notGreaterEq _ _ (by rw [Fl.val_zero]; linarith)
  refine ⟨?_, ?_, fun x hx hb => ?_⟩
  · unfold intersectRayBox
    rw [hI]
    simp only [Ext.isGreaterEq, q2, q3]
    split <;> rfl
  · unfold isIntersectingRayBox
    rw [hI]
    simp only [Ext.isGreaterEq, q3, Bool.and_false]
  · obtain ⟨-, x2⟩ := (ray_axis (Fl.toReal r.origin) (Fl.toReal d) x a hne h0).1 hx
    have x2 : 0 ≤ (x a - (r.origin a).1) * (d a).1 := x2
    have x3 : (lo a).1 - 0 ≤ x a ∧ x a ≤ (hi a).1 + 0 := hb a
    have hne0 : far.1 - (r.origin a).1 ≠ 0 := fun h => by
      rw [h, abs_zero, F.rounds.zero] at hgap; linarith
    rcases hnf with ⟨h, rfl⟩ | ⟨h, rfl⟩
    · rw [k1 h] at hf
      have := nonneg_of_mul_nonneg_left x2 h
      exact hne0 (by linarith)
    · rw [k2 h] at hf
      have := nonpos_of_mul_nonneg_left x2 h
      exact hne0 (by linarith)

/-- **C166** ... and with the box beside it, farther than the tolerance in some coordinate the ray does not change: neither function reports anything,
and indeed there is no common point. The tolerance must see differences of its size, and the limits of the type must be in order. -/
theorem C166_beside (dbg : Bool) (o d lo hi : Vec (Fl F) 3) (a b : Fin 3) (r : Ray (Fl F) 3) (hr : Ray.make dbg o d = .ok r) (hne : (d a).1 ≠ 0)
    (h0 : ∀ i, i ≠ a → (d i).1 = 0) (hs : ∀ k, F.emin = some k → k + F.prec ≤ 1 ∧ (2 : ℝ) ^ ((k + F.prec) / 2) ≤ |(d a).1|)
    (hτ : FlTol F τ) (hτ0 : 0 < τ) (hz0 : isZero (0 : Fl F) = true) (hl : ∀ x y : Fl F, x.1 + τ ≤ y.1 → isLess x y = true)
    (hg : ∀ x y : Fl F, y.1 + τ ≤ x.1 → isGreater x y = true) (hle : ∀ x y : Fl F, y.1 + τ ≤ x.1 → isLessEq x y = false)
    (hlim : (HasLimits.lowest : Fl F).1 + τ ≤ (HasLimits.maxVal : Fl F).1) (hba : b ≠ a)
    (hout : (o b).1 + τ ≤ (lo b).1 ∨ (hi b).1 + τ ≤ (o b).1) :
    intersectRayBox dbg r ⟨lo, hi⟩ = .ok ⟨none, none⟩ ∧ isIntersectingRayBox r ⟨lo, hi⟩ = false ∧
      ∀ x, x ∈ ray (Fl.toReal o) (Fl.toReal d) → ¬ inBox (Fl.toReal lo) (Fl.toReal hi) 0 x := by
  obtain ⟨rfl, k0, -, -⟩ := ray_made dbg o d a r hr hne h0 hs
  have hslab : raySlab (r.origin b) (r.direction b) (lo b) (hi b) = none := by
    rw [show r.direction b = 0 from Fl.ext ((k0 b hba).trans Fl.val_zero.symm)]
    unfold raySlab
    rcases hout with h | h
    · simp [hz0, hl _ _ h]
    · simp [hz0, hg _ _ h]
  have hI : aabbRayInterval r ⟨lo, hi⟩ = (.fin HasLimits.maxVal, .fin HasLimits.lowest) := by
    unfold aabbRayInterval
    fin_cases b
    · have h : raySlab (r.origin 0) (r.direction 0) (lo 0) (hi 0) = none := hslab
      simp only [h]
    · have h : raySlab (r.origin 1) (r.direction 1) (lo 1) (hi 1) = none := hslab
      simp only [h]
      split <;> simp_all
    · have h : raySlab (r.origin 2) (r.direction 2) (lo 2) (hi 2) = none := hslab
      simp only [h]
      split <;> simp_all
  refine ⟨?_, ?_, fun x hx hb => ?_⟩
  · unfold intersectRayBox
    rw [hI]
    simp only [Ext.isGreaterEq, hτ.greaterEq _ _ (show (HasLimits.lowest : Fl F).1 ≤ (HasLimits.maxVal : Fl F).1 by linarith)]
    rfl
  · unfold isIntersectingRayBox
    rw [hI]
    simp only [Ext.isLessEq, hle _ _ hlim, Bool.false_and]
  · have x1 : x b = (r.origin b).1 := ((ray_axis (Fl.toReal r.origin) (Fl.toReal d) x a hne h0).1 hx).1 b hba
    have x3 : (lo b).1 - 0 ≤ x b ∧ x b ≤ (hi b).1 + 0 := hb b
    rcases hout with h | h <;> linarith
end

section Examples
attribute [local instance] tol64
noncomputable local instance limitsAxisBox : HasLimits (Fl binary64) := ⟨fl64 (10 ^ 9), fl64 (-10 ^ 9)⟩

/-- The ray from (1, 2, 1) along (0, 0, 5) and the box from (0, 0, 3) to (4, 4, 7): the common part is exactly the computed segment. -/
example : ∃ r p q, Ray.make true (p64 1 2 1) (p64 0 0 5) = .ok r ∧ intersectRayBox true r ⟨p64 0 0 3, p64 4 4 7⟩ = .ok ⟨some p, some q⟩ ∧
    {x | x ∈ ray (Fl.toReal (p64 1 2 1)) (Fl.toReal (p64 0 0 5)) ∧ inBox (Fl.toReal (p64 0 0 3)) (Fl.toReal (p64 4 4 7)) 0 x} =
      segment (Fl.toReal p) (Fl.toReal q) := by
  obtain ⟨h1, h2, h3⟩ := third64_facts 5 (by norm_num) (by norm_num)
  obtain ⟨-, -, r, hr, -, -⟩ := C161_make true (p64 1 2 1) (p64 0 0 5) 2 h1 h2 (axis_small64 h3)
    (lt_of_le_of_lt (binary64.rounds.of_le binary64.one_mem (show (1 / 10 ^ 6 : ℝ) ≤ 1 by norm_num)) (by simp [p64, fl64_val]))
  have e1 : ((p64 1 2 1) 2).1 = 1 := by simp [p64, fl64_val]
  have e3 : ((p64 0 0 3) 2).1 = 3 := by simp [p64, fl64_val]
  have e5 : ((p64 0 0 5) 2).1 = 5 := by simp [p64, fl64_val]
  have e7 : ((p64 4 4 7) 2).1 = 7 := by simp [p64, fl64_val]
  have r2 := rnd_int64 2 (by norm_num)
  have r6 := rnd_int64 6 (by norm_num)
  obtain ⟨p, q, hpq, -, -, -, -, h⟩ := C166_through true (p64 1 2 1) (p64 0 0 5) (p64 0 0 3) (p64 4 4 7) 2 r hr h1 h2 (axis_small64 h3) flTol64
    (by norm_num) (decide_eq_true (by rw [Fl.val_zero]; norm_num)) (fun x hx => isZero64 _ x (by rw [hx]; norm_num)) (by rw [e3, e7]; norm_num)
    (by
      intro i hi
      fin_cases i
      · simp [p64, fl64_val]
      · simp [p64, fl64_val]; norm_num
      · exact absurd rfl hi)
    ((p64 0 0 3) 2) ((p64 4 4 7) 2) (.inl ⟨by rw [e5]; norm_num, rfl, rfl⟩) (by rw [e1, e3, e5]; norm_num)
    (by
      rw [e1, e3, e7]
      norm_num at r2 r6 ⊢
      rw [r2, r6]; norm_num)
  refine ⟨r, p, q, hr, hpq, h ?_ ?_⟩
  · rw [e1, e3, show (3 : ℝ) - 1 = (fl64 2).1 by rw [fl64_val]; norm_num]; exact (fl64 2).2
  · rw [e1, e7, show (7 : ℝ) - 1 = (fl64 6).1 by rw [fl64_val]; norm_num]; exact (fl64 6).2

/-- The ray from (1, 2, 4) along (0, 0, 5), which starts in the same box. -/
example : ∃ r q, Ray.make true (p64 1 2 4) (p64 0 0 5) = .ok r ∧ intersectRayBox true r ⟨p64 0 0 3, p64 4 4 7⟩ = .ok ⟨none, some q⟩ ∧
    {x | x ∈ ray (Fl.toReal (p64 1 2 4)) (Fl.toReal (p64 0 0 5)) ∧ inBox (Fl.toReal (p64 0 0 3)) (Fl.toReal (p64 4 4 7)) 0 x} =
      segment (Fl.toReal (p64 1 2 4)) (Fl.toReal q) := by
  obtain ⟨h1, h2, h3⟩ := third64_facts 5 (by norm_num) (by norm_num)
  obtain ⟨-, -, r, hr, -, -⟩ := C161_make true (p64 1 2 4) (p64 0 0 5) 2 h1 h2 (axis_small64 h3)
    (lt_of_le_of_lt (binary64.rounds.of_le binary64.one_mem (show (1 / 10 ^ 6 : ℝ) ≤ 1 by norm_num)) (by simp [p64, fl64_val]))
  have e1 : ((p64 1 2 4) 2).1 = 4 := by simp [p64, fl64_val]
  have e3 : ((p64 0 0 3) 2).1 = 3 := by simp [p64, fl64_val]
  have e5 : ((p64 0 0 5) 2).1 = 5 := by simp [p64, fl64_val]
  have e7 : ((p64 4 4 7) 2).1 = 7 := by simp [p64, fl64_val]
  have r1 := rnd_int64 1 (by norm_num)
  obtain ⟨q, hq, -, -, -, h⟩ := C166_inside true (p64 1 2 4) (p64 0 0 5) (p64 0 0 3) (p64 4 4 7) 2 r hr h1 h2 (axis_small64 h3) flTol64
    (by norm_num) (decide_eq_true (by rw [Fl.val_zero]; norm_num)) (fun x hx => isZero64 _ x (by rw [hx]; norm_num)) (by rw [e3, e7]; norm_num)
    (by
      intro i
      fin_cases i <;> simp [p64, fl64_val] <;> norm_num)
    ((p64 0 0 3) 2) ((p64 4 4 7) 2) (.inl ⟨by rw [e5]; norm_num, rfl, rfl⟩)
    (by
      rw [e1, e3]
      norm_num at r1 ⊢
      rw [r1]; norm_num)
  refine ⟨r, q, hr, hq, h ?_⟩
  rw [e1, e7, show (7 : ℝ) - 4 = (fl64 3).1 by rw [fl64_val]; norm_num]; exact (fl64 3).2

/-- The ray from (1, 2, 9) along (0, 0, 5), with the same box behind it. -/
example : ∃ r, Ray.make true (p64 1 2 9) (p64 0 0 5) = .ok r ∧ intersectRayBox true r ⟨p64 0 0 3, p64 4 4 7⟩ = .ok ⟨none, none⟩ := by
  obtain ⟨h1, h2, h3⟩ := third64_facts 5 (by norm_num) (by norm_num)
  obtain ⟨-, -, r, hr, -, -⟩ := C161_make true (p64 1 2 9) (p64 0 0 5) 2 h1 h2 (axis_small64 h3)
    (lt_of_le_of_lt (binary64.rounds.of_le binary64.one_mem (show (1 / 10 ^ 6 : ℝ) ≤ 1 by norm_num)) (by simp [p64, fl64_val]))
  have e1 : ((p64 1 2 9) 2).1 = 9 := by simp [p64, fl64_val]
  have e3 : ((p64 0 0 3) 2).1 = 3 := by simp [p64, fl64_val]
  have e5 : ((p64 0 0 5) 2).1 = 5 := by simp [p64, fl64_val]
  have e7 : ((p64 4 4 7) 2).1 = 7 := by simp [p64, fl64_val]
  have r2 := rnd_int64 2 (by norm_num)
  refine ⟨r, hr, (C166_behind true (p64 1 2 9) (p64 0 0 5) (p64 0 0 3) (p64 4 4 7) 2 r hr h1 h2 (axis_small64 h3) flTol64
    (by norm_num) (decide_eq_true (by rw [Fl.val_zero]; norm_num)) (fun x hx => isZero64 _ x (by rw [hx]; norm_num)) (by rw [e3, e7]; norm_num)
    (by
      intro i hi
      fin_cases i
      · simp [p64, fl64_val]
      · simp [p64, fl64_val]; norm_num
      · exact absurd rfl hi)
    ((p64 4 4 7) 2) (.inl ⟨by rw [e5]; norm_num, rfl⟩) (by rw [e1, e5, e7]; norm_num) ?_).1⟩
  rw [e1, e7]
  norm_num at r2 ⊢
  rw [r2]; norm_num

/-- The ray from (6, 2, 1) along (0, 0, 5), with the same box beside it. -/
example : ∃ r, Ray.make true (p64 6 2 1) (p64 0 0 5) = .ok r ∧ intersectRayBox true r ⟨p64 0 0 3, p64 4 4 7⟩ = .ok ⟨none, none⟩ := by
  obtain ⟨h1, h2, h3⟩ := third64_facts 5 (by norm_num) (by norm_num)
  obtain ⟨-, -, r, hr, -, -⟩ := C161_make true (p64 6 2 1) (p64 0 0 5) 2 h1 h2 (axis_small64 h3)
    (lt_of_le_of_lt (binary64.rounds.of_le binary64.one_mem (show (1 / 10 ^ 6 : ℝ) ≤ 1 by norm_num)) (by simp [p64, fl64_val]))
  refine ⟨r, hr, (C166_beside true (p64 6 2 1) (p64 0 0 5) (p64 0 0 3) (p64 4 4 7) 2 0 r hr h1 h2 (axis_small64 h3) flTol64
    (by norm_num) (decide_eq_true (by rw [Fl.val_zero]; norm_num)) (fun x y h => decide_eq_true (by linarith))
    (fun x y h => decide_eq_true (by linarith)) (fun x y h => decide_eq_false (by linarith)) ?_ (by decide) (.inr ?_)).1⟩
  · show (fl64 (-10 ^ 9)).1 + _ ≤ (fl64 (10 ^ 9)).1
    rw [fl64_val _ (by norm_num), fl64_val _ (by norm_num)]; norm_num
  · simp [p64, fl64_val]; norm_num
end Examples
end Verif
