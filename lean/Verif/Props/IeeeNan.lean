import Verif.Props.IeeeBox
import Verif.Model.Distance
import Verif.Proofs.MeshNormals

set_option linter.unusedSectionVars false

/-
Property C119: degenerate segments and triangles give NaN.
-/
namespace Verif
open Spec
namespace Ieee
variable {F : IeeeFormat}

/-! ### Zero or NaN -/

/-- Zero (of either sign) or NaN. -/
def ZN (a : Ieee F) : Prop := a = nan ∨ a.val? = some 0

theorem zero_small : |(0 : ℝ)| < 2 ^ F.emax := by rw [abs_zero]; positivity

theorem ZN.neg {a : Ieee F} (h : ZN a) : ZN (-a) := by
  rcases h with rfl | h
  · exact .inl rfl
  · cases a with
    | nan => exact .inl rfl
    | inf s => simp [val?] at h
    | negZero => exact .inr rfl
    | fin x hx =>
      simp only [val?, Option.some.injEq] at h
      refine .inr ?_
      show (@ite (Ieee F) (x.1 = 0) _ _ _).val? = _
      rw [if_pos h]; rfl

theorem ZN.add {a b : Ieee F} (ha : ZN a) (hb : ZN b) : ZN (a + b) := by
  rcases ha with rfl | ha
  · exact .inl rfl
  · rcases hb with rfl | hb
    · exact .inl (add_nan _)
    · obtain ⟨s, hs⟩ := add_def ha hb
      rw [hs, add_zero]
      exact .inr (ofReal_val (0 : Fl F.toFloatFormat).2 zero_small)

theorem ZN.sub {a b : Ieee F} (ha : ZN a) (hb : ZN b) : ZN (a - b) := ha.add hb.neg

theorem inf_mul_zero {s : Bool} {b : Ieee F} (hb : b.val? = some 0) : inf s * b = nan := by
  cases b with
  | nan => rfl
  | inf s => simp [val?] at hb
  | negZero => show (@ite (Ieee F) _ (Classical.propDecidable _) _ _) = _; rw [if_pos hb]
  | fin x hx => show (@ite (Ieee F) _ (Classical.propDecidable _) _ _) = _; rw [if_pos hb]

theorem ZN.mul_left {a : Ieee F} (ha : ZN a) (b : Ieee F) : ZN (a * b) := by
  rcases ha with rfl | ha
  · exact .inl rfl
  · rcases wild_or b with (rfl | ⟨t, rfl⟩) | ⟨r, hr⟩
    · exact .inl (mul_nan _)
    · refine .inl ?_
      cases a with
      | nan => rfl
      | inf s => simp [val?] at ha
      | negZero => show (@ite (Ieee F) _ (Classical.propDecidable _) _ _) = _; rw [if_pos ha]
      | fin x hx => show (@ite (Ieee F) _ (Classical.propDecidable _) _ _) = _; rw [if_pos ha]
    · obtain ⟨s, hs⟩ := mul_def ha hr
      rw [hs, zero_mul]
      exact .inr (ofReal_val (0 : Fl F.toFloatFormat).2 zero_small)

theorem ZN.mul_right {b : Ieee F} (hb : ZN b) (a : Ieee F) : ZN (a * b) := by
  rcases hb with rfl | hb
  · exact .inl (mul_nan _)
  · rcases wild_or a with (rfl | ⟨t, rfl⟩) | ⟨r, hr⟩
    · exact .inl rfl
    · exact .inl (inf_mul_zero hb)
    · obtain ⟨s, hs⟩ := mul_def hr hb
      rw [hs, mul_zero]
      exact .inr (ofReal_val (0 : Fl F.toFloatFormat).2 zero_small)

theorem ZN.sqrt {a : Ieee F} (h : ZN a) : ZN (HasSqrt.sqrt a) := by
  rcases h with rfl | h
  · exact .inl rfl
  · cases a with
    | nan => exact .inl rfl
    | inf s => simp [val?] at h
    | negZero => exact .inr rfl
    | fin x hx =>
      simp only [val?, Option.some.injEq] at h
      refine .inr ?_
      show (@ite (Ieee F) (x.1 < 0) _ _ _).val? = _
      rw [if_neg (by rw [h]; exact lt_irrefl _), h, Real.sqrt_zero]
      exact ofReal_val (0 : Fl F.toFloatFormat).2 zero_small

/-- `0 / 0` is NaN. -/
theorem ZN.div {a b : Ieee F} (ha : ZN a) (hb : ZN b) : a / b = nan := by
  rcases ha with rfl | ha
  · rfl
  · rcases hb with rfl | hb
    · exact div_nan _
    · cases a <;> cases b <;> simp only [val?, Option.some.injEq, reduceCtorEq] at ha hb
      all_goals
        show (@ite (Ieee F) _ (Classical.propDecidable _) (@ite (Ieee F) _ (Classical.propDecidable _) _ _) _) = nan
        rw [if_pos (by simp [val?, hb]), if_pos (by simp [val?, ha])]

theorem ZN.foldl {n : Nat} (f : Fin n → Ieee F) (h : ∀ i, ZN (f i)) : ZN (Fin.foldl n (fun s i => s + f i) 0) := by
  induction n with
  | zero => exact .inr rfl
  | succ n ih => rw [Fin.foldl_succ_last]; exact (ih _ fun i => h _).add (h _)

theorem Like.sub {a b : Ieee F} (h : Like a b) : ZN (a - b) := by
  rcases h with ⟨rfl, rfl⟩ | ⟨s, rfl, rfl⟩ | ⟨r, h1, h2⟩
  · exact .inl rfl
  · refine .inl ?_
    show (if s = !s then inf s else nan) = nan
    cases s <;> rfl
  · refine .inr ?_
    have hb : (-b).val? = some (-r) := by
      have := (Near.neg (k := F.emax) (x := ⟨r, (val_mem h2).1⟩) ⟨h2, (val_mem h2).2.le⟩).val
      exact this
    obtain ⟨s, hs⟩ := add_def h1 hb
    rw [show a - b = a + -b from rfl, hs, add_neg_cancel]
    exact ofReal_val (0 : Fl F.toFloatFormat).2 zero_small

theorem like_of_beq {a b : Ieee F} (h : (a == b) = true) : Like a b := by
  have := beq_iff.1 h
  rcases wild_or a with (rfl | ⟨s, rfl⟩) | ⟨r, hr⟩
  · exact absurd rfl this.1
  · rcases wild_or b with (rfl | ⟨t, rfl⟩) | ⟨q, hq⟩
    · exact absurd rfl this.2.1
    · have h3 := this.2.2
      cases s <;> cases t <;> simp [ord] at h3
      · exact like_refl _
      · exact like_refl _
    · have h3 := this.2.2
      rw [ord_of_val hq] at h3
      cases s
      · exact absurd (show (⊤ : EReal) = _ from h3).symm (EReal.coe_ne_top _)
      · exact absurd (show (⊥ : EReal) = _ from h3).symm (EReal.coe_ne_bot _)
  · rcases wild_or b with (rfl | ⟨t, rfl⟩) | ⟨q, hq⟩
    · exact absurd rfl this.2.1
    · have h3 := this.2.2
      rw [ord_of_val hr] at h3
      cases t
      · exact absurd (show _ = (⊤ : EReal) from h3) (EReal.coe_ne_top _)
      · exact absurd (show _ = (⊥ : EReal) from h3) (EReal.coe_ne_bot _)
    · have h3 := this.2.2
      rw [ord_of_val hr, ord_of_val hq, EReal.coe_eq_coe_iff] at h3
      exact .inr (.inr ⟨r, hr, h3 ▸ hq⟩)

theorem Like.symm {a b : Ieee F} (h : Like a b) : Like b a := by
  rcases h with ⟨h1, h2⟩ | ⟨s, h1, h2⟩ | ⟨r, h1, h2⟩
  · exact .inl ⟨h2, h1⟩
  · exact .inr (.inl ⟨s, h2, h1⟩)
  · exact .inr (.inr ⟨r, h2, h1⟩)

theorem Like.trans {a b c : Ieee F} (h : Like a b) (h' : Like b c) : Like a c := by
  rcases h with ⟨rfl, rfl⟩ | ⟨s, rfl, rfl⟩ | ⟨r, h1, h2⟩
  · exact h'
  · exact h'
  · rcases h' with ⟨rfl, rfl⟩ | ⟨t, rfl, rfl⟩ | ⟨q, h3, h4⟩
    · simp [val?] at h2
    · simp [val?] at h2
    · have : r = q := by rw [h2] at h3; exact Option.some.inj h3
      exact .inr (.inr ⟨r, h1, this ▸ h4⟩)

/-! ### Opposite values -/

/-- The values differ by the sign. -/
def Opp (a b : Ieee F) : Prop := (a = nan ∧ b = nan) ∨ (∃ s, a = inf s ∧ b = inf !s) ∨ ∃ r, a.val? = some r ∧ b.val? = some (-r)

theorem ofReal_cases (s : Bool) (r : ℝ) : (∃ q, (ofReal (F := F) s r).val? = some q ∧ q = F.rnd r) ∨
    ofReal (F := F) s r = inf (@decide (F.rnd r < 0) (Classical.propDecidable _)) ∧ F.rnd r ≠ 0 ∧ ¬ |F.rnd r| < 2 ^ F.emax := by
  by_cases h : |F.rnd r| < 2 ^ F.emax
  · left
    refine ⟨_, ?_, rfl⟩
    unfold ofReal
    simp only
    split_ifs with h0 hs
    · exact congrArg some (show (0 : ℝ) = F.rnd r from h0.symm)
    · exact congrArg some (show (0 : ℝ) = F.rnd r from h0.symm)
    · rfl
    · rename_i hc; exact absurd h hc
  · right
    have h0 : ¬ F.rnd r = 0 := fun hc => h (by rw [hc]; exact zero_small)
    refine ⟨?_, h0, h⟩
    unfold ofReal
    simp only
    split_ifs with h3 h4 h5
    · exact absurd h3 h0
    · exact absurd h3 h0
    · exact absurd h5 h
    · rfl

theorem ofReal_opp (s t : Bool) (r : ℝ) : Opp (ofReal (F := F) s r) (ofReal t (-r)) := by
  rcases ofReal_cases (F := F) s r with ⟨q, h1, h2⟩ | ⟨h1, h0, h2⟩
  · rcases ofReal_cases (F := F) t (-r) with ⟨q', h3, h4⟩ | ⟨h3, _, h4⟩
    · rw [F.rounds.odd] at h4
      exact .inr (.inr ⟨q, h1, by rw [h3, h4, h2]⟩)
    · rw [F.rounds.odd, abs_neg, ← h2] at h4
      exact absurd (val_mem h1).2 h4
  · rcases ofReal_cases (F := F) t (-r) with ⟨q', h3, h4⟩ | ⟨h3, _, h4⟩
    · have := (val_mem h3).2
      rw [h4, F.rounds.odd, abs_neg] at this
      exact absurd this h2
    · refine .inr (.inl ⟨_, h1, ?_⟩)
      rw [h3, F.rounds.odd]
      congr 1
      rcases lt_or_gt_of_ne h0 with h | h
      · rw [@decide_eq_true _ (Classical.propDecidable _) h, @decide_eq_false _ (Classical.propDecidable _) (by linarith)]; rfl
      · rw [@decide_eq_false (F.rnd r < 0) (Classical.propDecidable _) (by linarith), @decide_eq_true (-F.rnd r < 0) (Classical.propDecidable _) (by linarith)]; rfl

theorem ofReal_like (s t : Bool) (r : ℝ) : Like (ofReal (F := F) s r) (ofReal t r) := by
  rcases ofReal_cases (F := F) s r with ⟨q, h1, h2⟩ | ⟨h1, h0, h2⟩
  · rcases ofReal_cases (F := F) t r with ⟨q', h3, h4⟩ | ⟨h3, _, h4⟩
    · exact .inr (.inr ⟨q, h1, by rw [h3, h4, h2]⟩)
    · rw [← h2] at h4
      exact absurd (val_mem h1).2 h4
  · rcases ofReal_cases (F := F) t r with ⟨q', h3, h4⟩ | ⟨h3, _, h4⟩
    · have := (val_mem h3).2
      rw [h4] at this
      exact absurd this h2
    · exact .inr (.inl ⟨_, h1, h3⟩)

theorem neg_val {a : Ieee F} {r : ℝ} (h : a.val? = some r) : (-a).val? = some (-r) :=
  (Near.neg (k := F.emax) (x := ⟨r, (val_mem h).1⟩) ⟨h, (val_mem h).2.le⟩).val

/-- `a - b` and `b - a`, also where they overflow. -/
theorem sub_opp (a b : Ieee F) : Opp (a - b) (b - a) := by
  rcases wild_or a with (rfl | ⟨s, rfl⟩) | ⟨r, hr⟩
  · exact .inl ⟨rfl, sub_nan _⟩
  · rcases wild_or b with (rfl | ⟨t, rfl⟩) | ⟨q, hq⟩
    · exact .inl ⟨sub_nan _, rfl⟩
    · show Opp (if s = !t then inf s else nan) (if t = !s then inf t else nan)
      cases s <;> cases t <;> simp [Opp]
    · refine .inr (.inl ⟨s, ?_, ?_⟩)
      · have := neg_val hq
        show inf s + -b = _
        generalize -b = c at this
        cases c <;> first | rfl | simp [val?] at this
      · show b + inf (!s) = _
        cases b <;> first | rfl | simp [val?] at hq
  · rcases wild_or b with (rfl | ⟨t, rfl⟩) | ⟨q, hq⟩
    · exact .inl ⟨sub_nan _, rfl⟩
    · refine .inr (.inl ⟨!t, ?_, ?_⟩)
      · show a + inf (!t) = _
        cases a <;> first | rfl | simp [val?] at hr
      · have := neg_val hr
        rw [Bool.not_not]
        show inf t + -a = _
        generalize -a = c at this
        cases c <;> first | rfl | simp [val?] at this
    · obtain ⟨s, hs⟩ := add_def hr (neg_val hq)
      obtain ⟨t, ht⟩ := add_def hq (neg_val hr)
      rw [show a - b = a + -b from rfl, show b - a = b + -a from rfl, hs, ht, show q + -r = -(r + -q) by ring]
      exact ofReal_opp _ _ _

theorem signBit_of_neg {a : Ieee F} {r : ℝ} (h : a.val? = some r) (h0 : r ≠ 0) : a.signBit = @decide (r < 0) (Classical.propDecidable _) := by
  cases a with
  | nan => simp [val?] at h
  | inf s => simp [val?] at h
  | negZero => simp only [val?, Option.some.injEq] at h; exact absurd h.symm h0
  | fin x hx => simp only [val?, Option.some.injEq] at h; subst h; rfl

theorem inf_mul_fin {s : Bool} {b : Ieee F} {q : ℝ} (hb : b.val? = some q) (h0 : q ≠ 0) :
    inf s * b = inf (s ^^ @decide (q < 0) (Classical.propDecidable _)) := by
  rw [← signBit_of_neg hb h0]
  have : ¬ b.val? = some 0 := by rw [hb]; simpa using h0
  cases b with
  | nan => simp [val?] at hb
  | inf s => simp [val?] at hb
  | negZero => exact absurd rfl this
  | fin x hx => show (@ite (Ieee F) _ (Classical.propDecidable _) _ _) = _; rw [if_neg this]

theorem fin_mul_inf {s : Bool} {b : Ieee F} {q : ℝ} (hb : b.val? = some q) (h0 : q ≠ 0) :
    b * inf s = inf ((@decide (q < 0) (Classical.propDecidable _)) ^^ s) := by
  rw [← signBit_of_neg hb h0]
  have : ¬ b.val? = some 0 := by rw [hb]; simpa using h0
  cases b with
  | nan => simp [val?] at hb
  | inf s => simp [val?] at hb
  | negZero => exact absurd rfl this
  | fin x hx => show (@ite (Ieee F) _ (Classical.propDecidable _) _ _) = _; rw [if_neg this]

theorem inf_mul_inf (s t : Bool) : (inf s * inf t : Ieee F) = inf (s ^^ t) := by
  show (@ite (Ieee F) _ (Classical.propDecidable _) _ _) = _
  rw [if_neg (by simp [val?])]; rfl

theorem inf_sub_self (s : Bool) : (inf s - inf s : Ieee F) = nan := by
  show (if s = !s then inf s else nan) = nan
  cases s <;> rfl

theorem neg_decide {q : ℝ} (h0 : q ≠ 0) : @decide (-q < 0) (Classical.propDecidable _) = !@decide (q < 0) (Classical.propDecidable _) := by
  rcases lt_or_gt_of_ne h0 with h | h
  · rw [@decide_eq_true _ (Classical.propDecidable _) h, @decide_eq_false _ (Classical.propDecidable _) (by linarith)]; rfl
  · rw [@decide_eq_false _ (Classical.propDecidable (q < 0)) (by linarith), @decide_eq_true _ (Classical.propDecidable _) (by linarith)]; rfl

/-- A coordinate of the cross product of a vector with its opposite. -/
theorem Opp.cross {a a' b b' : Ieee F} (ha : Opp a a') (hb : Opp b b') : ZN (a * b' - b * a') := by
  rcases ha with ⟨rfl, rfl⟩ | ⟨s, rfl, rfl⟩ | ⟨r, h1, h2⟩
  · exact .inl rfl
  · rcases hb with ⟨rfl, rfl⟩ | ⟨t, rfl, rfl⟩ | ⟨q, h3, h4⟩
    · exact .inl (by rw [mul_nan]; rfl)
    · rw [inf_mul_inf, inf_mul_inf]
      left
      cases s <;> cases t <;> exact inf_sub_self _
    · by_cases h0 : q = 0
      · subst h0
        rw [neg_zero] at h4
        have : (inf s : Ieee F) * b' = nan := inf_mul_zero h4
        exact .inl (by rw [this]; rfl)
      · rw [inf_mul_fin h4 (neg_ne_zero.2 h0), fin_mul_inf h3 h0, neg_decide h0]
        left
        generalize @decide (q < 0) (Classical.propDecidable _) = d
        cases s <;> cases d <;> exact inf_sub_self _
  · rcases hb with ⟨rfl, rfl⟩ | ⟨t, rfl, rfl⟩ | ⟨q, h3, h4⟩
    · exact .inl (by rw [nan_mul, sub_nan])
    · by_cases h0 : r = 0
      · subst h0
        rw [neg_zero] at h2
        have : (inf t : Ieee F) * a' = nan := inf_mul_zero h2
        exact .inl (by rw [this, sub_nan])
      · rw [inf_mul_fin h2 (neg_ne_zero.2 h0), fin_mul_inf h1 h0, neg_decide h0]
        left
        generalize @decide (r < 0) (Classical.propDecidable _) = d
        cases t <;> cases d <;> exact inf_sub_self _
    · obtain ⟨s, hs⟩ := mul_def h1 h4
      obtain ⟨t, ht⟩ := mul_def h3 h2
      rw [hs, ht, show q * -r = r * -q by ring]
      exact (ofReal_like _ _ _).sub

theorem Opp.of_like {a b c : Ieee F} (h : Opp a b) (h' : Like b c) : Opp a c := by
  rcases h with ⟨rfl, rfl⟩ | ⟨s, rfl, rfl⟩ | ⟨r, h1, h2⟩
  · exact .inl ⟨rfl, h'.nan_iff.1 rfl⟩
  · rcases h' with ⟨hc, _⟩ | ⟨t, h3, h4⟩ | ⟨q, h3, _⟩
    · cases hc
    · exact .inr (.inl ⟨s, rfl, by rw [h4, ← h3]⟩)
    · simp [val?] at h3
  · rcases h' with ⟨rfl, _⟩ | ⟨t, rfl, _⟩ | ⟨q, h3, h4⟩
    · simp [val?] at h2
    · simp [val?] at h2
    · exact .inr (.inr ⟨r, h1, by rw [h4, ← h3, h2]⟩)

theorem like_add {a a' b b' : Ieee F} (ha : Like a a') (hb : Like b b') : Like (a + b) (a' + b') := by
  rcases ha with ⟨rfl, rfl⟩ | ⟨s, rfl, rfl⟩ | ⟨r, h1, h2⟩
  · exact .inl ⟨rfl, rfl⟩
  · rcases hb with ⟨rfl, rfl⟩ | ⟨t, rfl, rfl⟩ | ⟨q, h3, h4⟩
    · exact .inl ⟨rfl, rfl⟩
    · exact like_refl _
    · refine .inr (.inl ⟨s, ?_, ?_⟩)
      · cases b <;> first | rfl | simp [val?] at h3
      · cases b' <;> first | rfl | simp [val?] at h4
  · rcases hb with ⟨rfl, rfl⟩ | ⟨t, rfl, rfl⟩ | ⟨q, h3, h4⟩
    · exact .inl ⟨add_nan _, add_nan _⟩
    · refine .inr (.inl ⟨t, ?_, ?_⟩)
      · cases a <;> first | rfl | simp [val?] at h1
      · cases a' <;> first | rfl | simp [val?] at h2
    · obtain ⟨s, hs⟩ := add_def h1 h3
      obtain ⟨t, ht⟩ := add_def h2 h4
      rw [hs, ht]
      exact ofReal_like _ _ _

theorem like_neg {a b : Ieee F} (h : Like a b) : Like (-a) (-b) := by
  rcases h with ⟨rfl, rfl⟩ | ⟨s, rfl, rfl⟩ | ⟨r, h1, h2⟩
  · exact like_refl _
  · exact like_refl _
  · exact .inr (.inr ⟨_, neg_val h1, neg_val h2⟩)

theorem like_sub {a a' b b' : Ieee F} (ha : Like a a') (hb : Like b b') : Like (a - b) (a' - b') := like_add ha (like_neg hb)

/-- The normal of a triangle two of whose corners coincide. -/
theorem normalOf_nan {p0 p1 p2 : Vec (Ieee F) 3}
    (h : (∀ i, Like (p0 i) (p1 i)) ∨ (∀ i, Like (p1 i) (p2 i)) ∨ ∀ i, Like (p0 i) (p2 i)) :
    normalOf (p0, p1, p2) = fun _ => nan := by
  have hz : ∀ i, ZN (cross (vsub p1 p0) (vsub p2 p1) i) := by
    intro i
    rcases h with h | h | h
    · have hu : ∀ i, ZN (vsub p1 p0 i) := fun i => (h i).symm.sub
      unfold cross
      split_ifs
      · exact ((hu _).mul_left _).sub ((hu _).mul_left _)
      · exact ((hu _).mul_left _).sub ((hu _).mul_left _)
      · exact ((hu _).mul_left _).sub ((hu _).mul_left _)
    · have hu : ∀ i, ZN (vsub p2 p1 i) := fun i => (h i).symm.sub
      unfold cross
      split_ifs
      · exact ((hu _).mul_right _).sub ((hu _).mul_right _)
      · exact ((hu _).mul_right _).sub ((hu _).mul_right _)
      · exact ((hu _).mul_right _).sub ((hu _).mul_right _)
    · have hu : ∀ i, Opp (vsub p1 p0 i) (vsub p2 p1 i) := fun i =>
        (sub_opp (p1 i) (p0 i)).of_like (like_sub (h i) (like_refl _))
      unfold cross
      split_ifs
      · exact (hu _).cross (hu _)
      · exact (hu _).cross (hu _)
      · exact (hu _).cross (hu _)
  have hl : ZN (length (cross (vsub p1 p0) (vsub p2 p1))) := (ZN.foldl _ fun i => (hz i).mul_left _).sqrt
  funext i
  exact (hz i).div hl
end Ieee
open Ieee

/-! ### Degenerate segments -/
section
variable {F : IeeeFormat} {D : Nat} [NeZero D]

/-- **C119** (false for degenerate segments) The distance of any point to a segment of length zero is NaN, also for the end point itself. -/
theorem C119_segment_counterexample (p q v : Vec (Ieee F) D) (h : ∀ i, (p i == q i) = true) : distSegmentVec ⟨p, q⟩ v = nan := by
  have hd : ∀ i, ZN (vsub q p i) := fun i => (like_of_beq (h i)).symm.sub
  have h1 : ZN (dot (vsub v p) (vsub q p)) := ZN.foldl _ fun i => (hd i).mul_right _
  have h2 : ZN (length (vsub q p)) := (ZN.foldl _ fun i => (hd i).mul_left _).sqrt
  have h3 : dot (vsub v p) (vsub q p) / length (vsub q p) = nan := h1.div h2
  have h4 : stdMin (stdMax (nan : Ieee F) 0) 1 = nan := by simp [stdMin, stdMax]
  show length (vsub (vadd p (vscale (vsub q p) (stdMin (stdMax (dot (vsub v p) (vsub q p) / length (vsub q p)) 0) 1))) v) = nan
  rw [h3, h4]
  have h5 : ∀ i, vsub (vadd p (vscale (vsub q p) nan)) v i = nan := by
    intro i
    show p i + (q i - p i) * nan - v i = nan
    rw [mul_nan, add_nan, nan_sub]
  unfold length dot
  rw [foldl_nan _ (0 : Fin D) (by rw [h5]; rfl), sqrt_nan]
end

/-! ### Degenerate triangles -/
section
variable {V : Type} [BEq V]

theorem weld_rep (cs : List V) (k : Nat) (hk : k < cs.length) :
    ∃ p, (weld cs).1[(weld cs).2.getD k 0]? = some p ∧ (p = cs[k] ∨ (p == cs[k]) = true) := by
  induction cs using List.reverseRecOn with
  | nil => simp at hk
  | append_singleton cs c ih =>
    rw [weld_append]
    simp only [List.foldl_cons, List.foldl_nil]
    have hl := weld_length cs
    generalize hs : weld cs = s at ih hl ⊢
    obtain ⟨p, a⟩ := s
    dsimp only at ih hl
    by_cases hk' : k < cs.length
    · obtain ⟨x, ih, hx⟩ := ih hk'
      have hlt := (List.getElem?_eq_some_iff.1 ih).1
      unfold weldStep
      cases hf : p.findIdx? (· == c) with
      | some i =>
        simp only [List.getElem_append_left hk']
        refine ⟨x, ?_, hx⟩
        rw [← ih, List.getD_eq_getElem?_getD, List.getD_eq_getElem?_getD, List.getElem?_append_left (by omega)]
      | none =>
        simp only [List.getElem_append_left hk']
        refine ⟨x, ?_, hx⟩
        rw [List.getD_eq_getElem?_getD, List.getElem?_append_left (l₁ := a) (by omega), ← List.getD_eq_getElem?_getD,
          List.getElem?_append_left hlt, ih]
    · have hke : k = cs.length := by simp at hk; omega
      subst hke
      unfold weldStep
      cases hf : p.findIdx? (· == c) with
      | some i =>
        obtain ⟨hi, he, _⟩ := List.findIdx?_eq_some_iff_getElem.1 hf
        simp only [List.getElem_concat_length]
        refine ⟨p[i], ?_, .inr he⟩
        rw [List.getD_eq_getElem?_getD, ← hl, List.getElem?_concat_length, Option.getD_some, List.getElem?_eq_getElem hi]
      | none =>
        simp only [List.getElem_concat_length]
        refine ⟨c, ?_, .inl rfl⟩
        rw [List.getD_eq_getElem?_getD, ← hl, List.getElem?_concat_length, Option.getD_some,
          List.getElem?_concat_length]

/-- No point is stored twice. -/
theorem weld_pairwise (cs : List V) : (weld cs).1.Pairwise fun a b => (a == b) = false := by
  induction cs using List.reverseRecOn with
  | nil => exact List.Pairwise.nil
  | append_singleton cs c ih =>
    rw [weld_append]
    simp only [List.foldl_cons, List.foldl_nil]
    unfold weldStep
    cases hf : (weld cs).1.findIdx? (· == c) with
    | some i => exact ih
    | none =>
      refine List.pairwise_append.2 ⟨ih, List.pairwise_singleton _ _, ?_⟩
      intro a ha b hb
      rw [List.mem_singleton] at hb
      subst hb
      have := List.findIdx?_eq_none_iff.1 hf a ha
      simpa using this

variable {T : Type} [Zero T] [Add T] [Sub T] [Mul T] [Div T] [HasSqrt T] [BEq (Vec T 3)]

/-- The normal of a facet is computed from the stored points that stand for its corners. -/
theorem calcFacetNormal_rep (o : Nat → Nat) (ts : List (Vec T 3 × Vec T 3 × Vec T 3)) (j : Nat) (hj : j < ts.length) :
    ∃ p0 p1 p2, (p0 = ts[j].1 ∨ (p0 == ts[j].1) = true) ∧ (p1 = ts[j].2.1 ∨ (p1 == ts[j].2.1) = true) ∧ (p2 = ts[j].2.2 ∨ (p2 == ts[j].2.2) = true) ∧
      calcFacetNormal (meshOfO o (weld (corners ts)).1 (weld (corners ts)).2) ⟨3 * j⟩ = .ok (normalOf (p0, p1, p2)) := by
  have hl : (weld (corners ts)).2.length = 3 * ts.length := by rw [weld_length, corners_length]
  have n0 : nextCorner (3 * j) = 3 * j + 1 := by unfold nextCorner; omega
  have n1 : nextCorner (3 * j + 1) = 3 * j + 2 := by unfold nextCorner; omega
  have hv : ∀ d (hd : d < 3) c, [ts[j].1, ts[j].2.1, ts[j].2.2][d]? = some c → ∃ p, (p = c ∨ (p == c) = true) ∧
      (meshOfO o (weld (corners ts)).1 (weld (corners ts)).2).heVector (heOfO o (weld (corners ts)).2 (3 * j + d)) = .ok p := by
    intro d hd c hc
    have hk : 3 * j + d < (corners ts).length := by rw [corners_length]; omega
    obtain ⟨p, h1, h2⟩ := weld_rep (corners ts) _ hk
    have hcc : (corners ts)[3 * j + d] = c := by
      have := corners_getElem? ts j d hj hd
      rw [hc, List.getElem?_eq_getElem hk] at this
      exact Option.some.inj this
    rw [hcc] at h2
    exact ⟨p, h2, by rw [meshOfO_heVector _ _ _ (weld_welded _) (by rw [weld_length]; exact hk)]; exact vecGet_of_getElem? h1⟩
  obtain ⟨p0, r0, b0⟩ := hv 0 (by omega) _ rfl
  obtain ⟨p1, r1, b1⟩ := hv 1 (by omega) _ rfl
  obtain ⟨p2, r2, b2⟩ := hv 2 (by omega) _ rfl
  refine ⟨p0, p1, p2, r0, r1, r2, ?_⟩
  have e2 : (meshOfO o (weld (corners ts)).1 (weld (corners ts)).2).heNextVector
      (heOfO o (weld (corners ts)).2 (3 * j + 1)) = .ok p2 := by
    rw [meshOfO_heNextVector _ _ _ (weld_welded _) hl (by omega), n1, ← b2,
      meshOfO_heVector _ _ _ (weld_welded _) (by omega)]
  unfold calcFacetNormal
  rw [show (meshOfO o (weld (corners ts)).1 (weld (corners ts)).2).facetHalfedge ⟨3 * j⟩
    = .ok (heOfO o (weld (corners ts)).2 (3 * j)) from meshOfO_he _ _ _ (show 3 * j < _ by omega), ok_bind,
    meshOfO_heNext _ _ _ hl (by omega), ok_bind, n0]
  rw [Nat.add_zero] at b0
  rw [b0, ok_bind, b1, ok_bind, e2, ok_bind]
  rfl
end

section
variable {F : IeeeFormat}

/-- Two corners of the triangle have equal coordinates. -/
def TwoEqual (t : Vec (Ieee F) 3 × Vec (Ieee F) 3 × Vec (Ieee F) 3) : Prop :=
  (∀ i, (t.1 i == t.2.1 i) = true) ∨ (∀ i, (t.2.1 i == t.2.2 i) = true) ∨ ∀ i, (t.1 i == t.2.2 i) = true

theorem rep_like {p c : Vec (Ieee F) 3} (h : p = c ∨ (p == c) = true) (i : Fin 3) : Like (p i) (c i) := by
  rcases h with rfl | h
  · exact like_refl _
  · exact like_of_beq (vec_beq_iff.1 h i)

theorem facet_nan (o : Nat → Nat) (ts : List (Vec (Ieee F) 3 × Vec (Ieee F) 3 × Vec (Ieee F) 3)) (j : Nat) (hj : j < ts.length) (ht : TwoEqual ts[j]) :
    calcFacetNormal (meshOfO o (weld (corners ts)).1 (weld (corners ts)).2) ⟨3 * j⟩ = .ok fun _ => nan := by
  obtain ⟨p0, p1, p2, r0, r1, r2, h⟩ := calcFacetNormal_rep o ts j hj
  rw [h, normalOf_nan]
  rcases ht with ht | ht | ht
  · exact .inl fun i => ((rep_like r0 i).trans (like_of_beq (ht i))).trans (rep_like r1 i).symm
  · exact .inr (.inl fun i => ((rep_like r1 i).trans (like_of_beq (ht i))).trans (rep_like r2 i).symm)
  · exact .inr (.inr fun i => ((rep_like r0 i).trans (like_of_beq (ht i))).trans (rep_like r2 i).symm)

/-- **C119** (false for degenerate triangles) The normal of a facet two of whose corners are equal is NaN in all coordinates. -/
theorem C119_facet_counterexample (dbg : Bool) (M : Nat) (ts : List (Vec (Ieee F) 3 × Vec (Ieee F) 3 × Vec (Ieee F) 3)) (hM : 3 * ts.length < M)
    (m : HalfedgeMesh (Vec (Ieee F) 3)) (hb : BuiltFrom dbg M ts m) (j : Nat) (hj : j < ts.length) (ht : TwoEqual ts[j]) :
    ∃ f, vecGet m.facets j = .ok f ∧ calcFacetNormal m f = .ok fun _ => nan := by
  obtain ⟨o, rfl⟩ := hb.eq hM
  have hl : (weld (corners ts)).2.length = 3 * ts.length := by rw [weld_length, corners_length]
  exact ⟨_, meshOfO_facet _ _ _ (by omega), facet_nan o ts j hj ht⟩

theorem stdUniqueFrom_nan {l : List (Vec (Ieee F) 3)} (last : Vec (Ieee F) 3) (h : (fun _ => nan) ∈ l) : (fun _ => nan) ∈ stdUniqueFrom last l := by
  induction l generalizing last with
  | nil => simp at h
  | cons x xs ih =>
    have hne : ∀ y : Vec (Ieee F) 3, (y == fun _ => nan) = false := by
      intro y
      rw [← Bool.not_eq_true, vec_beq_iff]
      intro hc
      have := hc 0
      rw [beq_nan] at this
      exact Bool.noConfusion this
    unfold stdUniqueFrom
    rcases List.mem_cons.1 h with rfl | h
    · rw [hne]; exact List.mem_cons_self
    · split_ifs
      · exact ih _ h
      · exact List.mem_cons_of_mem _ (ih _ h)

theorem stdUnique_nan {l : List (Vec (Ieee F) 3)} (h : (fun _ => nan) ∈ l) : (fun _ => nan) ∈ stdUnique l := by
  cases l with
  | nil => simp at h
  | cons x xs =>
    rcases List.mem_cons.1 h with rfl | h
    · exact List.mem_cons_self
    · exact List.mem_cons_of_mem _ (stdUniqueFrom_nan _ h)

theorem foldl_vadd_nan {l : List (Vec (Ieee F) 3)} (h : (fun _ => nan) ∈ l) (a : Vec (Ieee F) 3) : l.foldl vadd a = fun _ => nan := by
  have stay : ∀ l : List (Vec (Ieee F) 3), l.foldl vadd (fun _ => nan) = fun _ => nan := by
    intro l
    induction l with
    | nil => rfl
    | cons x xs ih => rw [List.foldl_cons, show vadd (fun _ => nan) x = fun _ => nan from rfl, ih]
  induction l generalizing a with
  | nil => simp at h
  | cons x xs ih =>
    rw [List.foldl_cons]
    rcases List.mem_cons.1 h with rfl | h
    · rw [show vadd a (fun _ => nan) = fun _ => nan from funext fun i => add_nan (a i), stay]
    · exact ih h _

theorem normalize_nan {D : Nat} [NeZero D] : normalize (fun _ : Fin D => (nan : Ieee F)) = fun _ => nan := rfl

/-- **C119** (false for degenerate triangles) ... and the vertex normals at the corners of such a facet are NaN, however the facet normals are sorted
(`perm`: any rearrangement of the facet normals instead of the sorted list). -/
theorem C119_vertex_counterexample (dbg : Bool) (M : Nat) (ts : List (Vec (Ieee F) 3 × Vec (Ieee F) 3 × Vec (Ieee F) 3)) (hM : 3 * ts.length < M)
    (m : HalfedgeMesh (Vec (Ieee F) 3)) (hb : BuiltFrom dbg M ts m) (j : Nat) (hj : j < ts.length) (ht : TwoEqual ts[j])
    (i : Nat) (hi : i < m.points.length) (c : Vec (Ieee F) 3) (hc : c ∈ [ts[j].1, ts[j].2.1, ts[j].2.2]) (hic : ∀ d, (m.points[i] d == c d) = true) :
    ∃ ns, calcVertexNormals m = .ok ns ∧ ns[i]? = some (fun _ => nan) ∧
      ∃ v fs normals, vecGet m.vertices i = .ok v ∧ calcVertexFacets m v = .ok fs ∧ facetNormals m fs = .ok normals ∧
        ∀ perm : List (Vec (Ieee F) 3), perm.Perm normals → normalize ((stdUnique perm).foldl vadd fun _ => 0) = fun _ => nan := by
  obtain ⟨o, rfl⟩ := hb.eq hM
  have hl : (weld (corners ts)).2.length = 3 * ts.length := by rw [weld_length, corners_length]
  set mm := meshOfO o (weld (corners ts)).1 (weld (corners ts)).2 with hmm
  let N : Nat → Vec (Ieee F) 3 := fun j => match calcFacetNormal mm ⟨3 * j⟩ with | .ok n => n | .error _ => fun _ => 0
  have hN : ∀ j, j < ts.length → calcFacetNormal mm ⟨3 * j⟩ = .ok (N j) := by
    intro j hj
    obtain ⟨p0, p1, p2, -, -, -, h⟩ := calcFacetNormal_rep o ts j hj
    rw [← hmm] at h
    simp only [N, h]
  let L : Nat → List (Vec (Ieee F) 3) := fun i => (hesOf (weld (corners ts)).2 i).map fun k => normalize (N (k / 3))
  have hlt : ∀ i, ∀ k ∈ hesOf (weld (corners ts)).2 i, k < (weld (corners ts)).2.length := fun i k hk =>
    (List.getElem?_eq_some_iff.1 ((mem_hesOf _ _ _).1 hk)).1
  have hfn : ∀ i, facetNormals mm ((hesOf (weld (corners ts)).2 i).map fun k => (⟨3 * (k / 3)⟩ : Facet)) = .ok (L i) := by
    intro i
    unfold facetNormals
    rw [List.foldlM_map]
    have := foldlM_push (fun k => do
      let n ← calcFacetNormal mm ⟨3 * (k / 3)⟩
      .ok (normalize n)) (fun k => normalize (N (k / 3))) (hesOf (weld (corners ts)).2 i) [] (by
        intro k hk
        have := hlt i k hk
        rw [hN (k / 3) (by omega), ok_bind])
    rw [List.nil_append] at this
    rw [show L i = (hesOf (weld (corners ts)).2 i).map fun k => normalize (N (k / 3)) from rfl, ← this]
    congr 1
    funext r k
    cases calcFacetNormal mm ⟨3 * (k / 3)⟩ <;> rfl
  have hg : ∀ v ∈ mm.vertices, calcVertexNormal mm v =
      .ok (normalize ((stdUnique ((L v.idx).mergeSort fun a b => !vecLexLt b a)).foldl vadd fun _ => 0)) := by
    intro v hv
    simp only [hmm, meshOfO, vertsOf, List.mem_map, List.mem_range] at hv
    obtain ⟨i, hi, rfl⟩ := hv
    unfold calcVertexNormal
    rw [calcVertexFacets_meshOfO _ _ _ _ hl i _ (hlt i), ok_bind, hfn i, ok_bind]
  -- the degenerate facet belongs to the vertex
  have hmem : (fun _ => nan) ∈ L i := by
    obtain ⟨d, hd, hdeq⟩ := List.mem_iff_getElem.1 hc
    have hd3 : d < 3 := by simpa using hd
    have hk : 3 * j + d < (corners ts).length := by rw [corners_length]; omega
    have hcc : (corners ts)[3 * j + d] = c := by
      have := corners_getElem? ts j d hj hd3
      rw [List.getElem?_eq_getElem hd, hdeq, List.getElem?_eq_getElem hk] at this
      exact Option.some.inj this
    obtain ⟨p, h1, h2⟩ := weld_rep (corners ts) _ hk
    rw [hcc] at h2
    obtain ⟨hlt', hp⟩ := List.getElem?_eq_some_iff.1 h1
    have hidx : (weld (corners ts)).2.getD (3 * j + d) 0 = i := by
      by_contra hne
      have hpi : (p == mm.points[i]) = true := by
        have e : (mm.points[i] == c) = true := vec_beq_iff.2 hic
        rcases h2 with rfl | h2
        · exact BEq.symm e
        · exact BEq.trans h2 (BEq.symm e)
      have hpw := List.pairwise_iff_getElem.1 (weld_pairwise (corners ts))
      rcases lt_or_gt_of_ne hne with h | h
      · have := hpw _ _ hlt' hi h
        rw [hp] at this
        exact Bool.false_ne_true (this.symm.trans hpi)
      · have := hpw _ _ hi hlt' h
        rw [hp] at this
        exact Bool.false_ne_true (this.symm.trans (BEq.symm hpi))
    refine List.mem_map.2 ⟨3 * j + d, ?_, ?_⟩
    · rw [mem_hesOf, ← hidx, List.getD_eq_getElem?_getD, List.getElem?_eq_getElem (by rw [weld_length]; exact hk)]; rfl
    · rw [show (3 * j + d) / 3 = j by omega]
      have := hN j hj
      rw [facet_nan o ts j hj ht, Except.ok.injEq] at this
      rw [← this]; rfl
  have hany : ∀ perm : List (Vec (Ieee F) 3), perm.Perm (L i) → normalize ((stdUnique perm).foldl vadd fun _ => 0) = fun _ => nan := by
    intro perm hp
    rw [foldl_vadd_nan (stdUnique_nan (hp.mem_iff.2 hmem))]; rfl
  have hv : vecGet mm.vertices i = .ok ⟨i, hesOf (weld (corners ts)).2 i⟩ := meshOfO_vert _ _ _ hi
  refine ⟨mm.vertices.map fun v => normalize ((stdUnique ((L v.idx).mergeSort fun a b => !vecLexLt b a)).foldl vadd fun _ => 0), ?_, ?_, _, _, _, hv,
    calcVertexFacets_meshOfO _ _ _ _ hl i _ (hlt i), hfn i, hany⟩
  · have := foldlM_push (calcVertexNormal mm) _ mm.vertices [] hg
    rw [List.nil_append] at this
    exact this
  · rw [List.getElem?_map]
    have : mm.vertices[i]? = some ⟨i, hesOf (weld (corners ts)).2 i⟩ := by
      simp [hmm, meshOfO, vertsOf, show i < (weld (corners ts)).1.length from hi]
    rw [this, Option.map_some, hany _ (List.mergeSort_perm _ _)]

/-! ### The order of the facet normals -/

/-- `vecLexLt` on vectors without NaN compares the values of the coordinates lexicographically. -/
theorem vecLexLt_ord {a b : Vec (Ieee F) 3} (ha : ∀ i, a i ≠ nan) (hb : ∀ i, b i ≠ nan) :
    vecLexLt a b = true ↔ ord (a 0) < ord (b 0) ∨ ord (a 0) = ord (b 0) ∧ (ord (a 1) < ord (b 1) ∨ ord (a 1) = ord (b 1) ∧ ord (a 2) < ord (b 2)) := by
  have hl : ∀ i, a i < b i ↔ ord (a i) < ord (b i) := fun i => lt_iff_ord (hb i)
  have he : ∀ i, (a i == b i) = true ↔ ord (a i) = ord (b i) := fun i => by rw [beq_iff]; exact ⟨fun h => h.2.2, fun h => ⟨ha i, hb i, h⟩⟩
  unfold vecLexLt
  simp only [Bool.or_eq_true, Bool.and_eq_true, decide_eq_true_eq, hl, he]
  tauto

/-- **C119** On normals without NaN the comparison used for sorting is a strict weak order, as `std::sort` requires. -/
theorem C119_order_partial (a b c : Vec (Ieee F) 3) (ha : ∀ i, a i ≠ nan) (hb : ∀ i, b i ≠ nan) (hc : ∀ i, c i ≠ nan) :
    vecLexLt a a = false ∧
    (vecLexLt a b = true → vecLexLt b c = true → vecLexLt a c = true) ∧
    ((vecLexLt a b = false ∧ vecLexLt b a = false) → (vecLexLt b c = false ∧ vecLexLt c b = false) → vecLexLt a c = false ∧ vecLexLt c a = false) := by
  simp only [← Bool.not_eq_true, vecLexLt_ord ha ha, vecLexLt_ord ha hb, vecLexLt_ord hb ha, vecLexLt_ord hb hc, vecLexLt_ord hc hb, vecLexLt_ord ha hc, vecLexLt_ord hc ha]
  generalize ord (a 0) = a0
  generalize ord (a 1) = a1
  generalize ord (a 2) = a2
  generalize ord (b 0) = b0
  generalize ord (b 1) = b1
  generalize ord (b 2) = b2
  generalize ord (c 0) = c0
  generalize ord (c 1) = c1
  generalize ord (c 2) = c2
  refine ⟨by simp, ?_, ?_⟩
  · rintro (h | ⟨rfl, h | ⟨rfl, h⟩⟩) (h' | ⟨rfl, h' | ⟨rfl, h'⟩⟩)
    · exact .inl (h.trans h')
    · exact .inl h
    · exact .inl h
    · exact .inl h'
    · exact .inr ⟨rfl, .inl (h.trans h')⟩
    · exact .inr ⟨rfl, .inl h⟩
    · exact .inl h'
    · exact .inr ⟨rfl, .inl h'⟩
    · exact .inr ⟨rfl, .inr ⟨rfl, h.trans h'⟩⟩
  · have eqs : ∀ x0 x1 x2 y0 y1 y2 : EReal, (¬ (x0 < y0 ∨ x0 = y0 ∧ (x1 < y1 ∨ x1 = y1 ∧ x2 < y2)) ∧
        ¬ (y0 < x0 ∨ y0 = x0 ∧ (y1 < x1 ∨ y1 = x1 ∧ y2 < x2))) → x0 = y0 ∧ x1 = y1 ∧ x2 = y2 := by
      rintro x0 x1 x2 y0 y1 y2 ⟨h1, h2⟩
      have e0 : x0 = y0 := le_antisymm (not_lt.1 fun h => h2 (.inl h)) (not_lt.1 fun h => h1 (.inl h))
      subst e0
      have e1 : x1 = y1 := le_antisymm (not_lt.1 fun h => h2 (.inr ⟨rfl, .inl h⟩)) (not_lt.1 fun h => h1 (.inr ⟨rfl, .inl h⟩))
      subst e1
      exact ⟨rfl, rfl, le_antisymm (not_lt.1 fun h => h2 (.inr ⟨rfl, .inr ⟨rfl, h⟩⟩)) (not_lt.1 fun h => h1 (.inr ⟨rfl, .inr ⟨rfl, h⟩⟩))⟩
    intro h h'
    obtain ⟨rfl, rfl, rfl⟩ := eqs _ _ _ _ _ _ h
    exact h'

/-- **C119** (false with NaN) The normal of a degenerate facet is incomparable with all other normals, so that a vertex with such a facet and two facets
with different normals gives `std::sort` a comparison that is not a strict weak order: its behaviour is undefined. -/
theorem C119_order_counterexample (a b : Vec (Ieee F) 3) (hab : vecLexLt a b = true) :
    let n : Vec (Ieee F) 3 := fun _ => nan
    (vecLexLt a n = false ∧ vecLexLt n a = false) ∧ (vecLexLt n b = false ∧ vecLexLt b n = false) ∧ ¬ (vecLexLt a b = false ∧ vecLexLt b a = false) := by
  have h1 : ∀ x : Vec (Ieee F) 3, vecLexLt x (fun _ => nan) = false := by
    intro x
    simp [vecLexLt]
  have h2 : ∀ x : Vec (Ieee F) 3, vecLexLt (fun _ => nan) x = false := by
    intro x
    simp [vecLexLt, nan_beq]
  exact ⟨⟨h1 a, h2 a⟩, ⟨h2 b, h1 b⟩, fun h => by rw [hab] at h; exact Bool.noConfusion h.1⟩
end

/-! ### Examples -/
section Examples
theorem beq_self_ie64 (n : ℤ) (h : |n| < 2 ^ 53) : (ie64 n h == ie64 n h) = true := beq_iff.2 ⟨fun hc => (by cases hc), fun hc => (by cases hc), rfl⟩

/-- The distance of a point to a one-point segment at that point. -/
example : distSegmentVec (⟨![ie64 1, ie64 2], ![ie64 1, ie64 2]⟩ : Segment (Ieee double64) 2) ![ie64 1, ie64 2] = nan :=
  C119_segment_counterexample _ _ _ (fun i => by fin_cases i <;> exact beq_self_ie64 _ _)

/-- A proper triangle and one whose first and third corner are equal. -/
noncomputable def exSliver : List (Vec (Ieee double64) 3 × Vec (Ieee double64) 3 × Vec (Ieee double64) 3) :=
  [(![ie64 0, ie64 0, ie64 0], ![ie64 1, ie64 0, ie64 0], ![ie64 0, ie64 1, ie64 0]),
   (![ie64 0, ie64 0, ie64 0], ![ie64 0, ie64 0, ie64 5], ![ie64 0, ie64 0, ie64 0])]

theorem exSliver_two : TwoEqual exSliver[1] := .inr (.inr fun i => by fin_cases i <;> exact beq_self_ie64 0 _)

example : ∃ m f, addTriangles true 100 exSliver = .ok m ∧ vecGet m.facets 1 = .ok f ∧ calcFacetNormal m f = .ok fun _ => nan := by
  have h := addTriangles_eq true 100 exSliver (by show 3 * 2 < 100; norm_num)
  obtain ⟨f, h1, h2⟩ := C119_facet_counterexample true 100 exSliver (by show 3 * 2 < 100; norm_num) _ (.of_add h) 1 (by show 1 < 2; norm_num) exSliver_two
  exact ⟨_, f, h, h1, h2⟩

theorem weld_first {V : Type} [BEq V] (c : V) (ds : List V) (s : List V × List Nat) (h : s.1[0]? = some c) : (ds.foldl weldStep s).1[0]? = some c := by
  induction ds generalizing s with
  | nil => exact h
  | cons d ds ih =>
    refine ih _ ?_
    unfold weldStep
    split
    · exact h
    · rw [List.getElem?_append_left (List.getElem?_eq_some_iff.1 h).1, h]

/-- ... and the normals at the origin, where the proper triangle has a corner, too. -/
example : ∃ m ns, addTriangles true 100 exSliver = .ok m ∧ calcVertexNormals m = .ok ns ∧ ns[0]? = some fun _ => nan := by
  have h := addTriangles_eq true 100 exSliver (by show 3 * 2 < 100; norm_num)
  have h0 : (weld (corners exSliver)).1[0]? = some ![ie64 0, ie64 0, ie64 0] := by
    have e : corners exSliver = [![ie64 0, ie64 0, ie64 0]] ++ [![ie64 1, ie64 0, ie64 0], ![ie64 0, ie64 1, ie64 0], ![ie64 0, ie64 0, ie64 0], ![ie64 0, ie64 0, ie64 5],
      ![ie64 0, ie64 0, ie64 0]] := rfl
    rw [e, weld_append]
    exact weld_first _ _ _ rfl
  obtain ⟨hlt, h0⟩ := List.getElem?_eq_some_iff.1 h0
  obtain ⟨ns, h1, h2, -⟩ := C119_vertex_counterexample true 100 exSliver (by show 3 * 2 < 100; norm_num) _ (.of_add h) 1 (by show 1 < 2; norm_num) exSliver_two 0 hlt
    ![ie64 0, ie64 0, ie64 0] List.mem_cons_self (fun d => by
      show (((weld (corners exSliver)).1[0]'hlt) d == _) = true
      rw [h0]
      fin_cases d <;> exact beq_self_ie64 0 _)
  exact ⟨_, ns, h, h1, h2⟩

example : vecLexLt (![ie64 3, ie64 4, inf true] : Vec (Ieee double64) 3) ![ie64 3, ie64 4, inf true] = false :=
  (C119_order_partial (F := double64) ![ie64 3, ie64 4, inf true] (fun _ => ie64 1) (fun _ => ie64 1) (fun i => by fin_cases i <;> exact fun hc => (by cases hc))
    (fun i hc => by cases hc) (fun i hc => by cases hc)).1

example : ¬ (vecLexLt (fun _ => (0 : Ieee double64)) (fun _ => 1) = false ∧ vecLexLt (fun _ => (1 : Ieee double64)) (fun _ => 0) = false) :=
  (C119_order_counterexample (F := double64) (fun _ => 0) (fun _ => 1)
    ((vecLexLt_ord (fun _ hc => by cases hc) (fun _ hc => by cases hc)).2 (.inl (by
      show ((0 : ℝ) : EReal) < ((1 : ℝ) : EReal)
      exact_mod_cast zero_lt_one)))).2.2
end Examples
end Verif
