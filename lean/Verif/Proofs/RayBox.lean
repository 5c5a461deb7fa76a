import Verif.Model.RayBox
import Verif.Proofs.Tol
import Verif.Proofs.Real
import Verif.Proofs.Res
import Verif.Spec.Box
import Mathlib.Tactic.FieldSimp
import Mathlib.Tactic.Positivity
import Mathlib.Tactic.FinCases

namespace Verif
set_option linter.unusedSectionVars false

namespace Ext
variable {K : Type*} [LinearOrder K]

/-- `e ≤ t` -/
def lowB : Ext K → K → Prop
  | negInf, _ => True
  | fin a, t => a ≤ t
  | posInf, _ => False
/-- `t ≤ e` -/
def upB : Ext K → K → Prop
  | negInf, _ => False
  | fin a, t => t ≤ a
  | posInf, _ => True

theorem lowB_max (a b : Ext K) (t : K) : lowB (max a b) t ↔ lowB a t ∧ lowB b t := by
  unfold max
  cases a <;> cases b <;> simp [ltb, lowB]
  rename_i x y
  by_cases h : x < y
  · rw [if_pos h]; simp only; constructor
    · intro h; exact ⟨by order, h⟩
    · exact fun h => h.2
  · rw [if_neg h]; simp only; constructor
    · intro h; exact ⟨h, by order⟩
    · exact fun h => h.1

theorem upB_min (a b : Ext K) (t : K) : upB (min a b) t ↔ upB a t ∧ upB b t := by
  unfold min
  cases a <;> cases b <;> simp [ltb, upB]
  rename_i x y
  by_cases h : y < x
  · rw [if_pos h]; simp only; constructor
    · intro h; exact ⟨by order, h⟩
    · exact fun h => h.2
  · rw [if_neg h]; simp only; constructor
    · intro h; exact ⟨h, by order⟩
    · exact fun h => h.1

theorem max_cases (a b : Ext K) : max a b = a ∨ max a b = b := by unfold max; split <;> simp
theorem min_cases (a b : Ext K) : min a b = a ∨ min a b = b := by unfold min; split <;> simp
end Ext

section
variable {K : Type*} [Field K] [LinearOrder K] [IsStrictOrderedRing K]

/-- where the line `o + t d` enters the slab `[lo, hi]` -/
def slabIn (o d lo hi : K) : K := min ((lo - o) * (1 / d)) ((hi - o) * (1 / d))
/-- where it leaves it -/
def slabOut (o d lo hi : K) : K := max ((lo - o) * (1 / d)) ((hi - o) * (1 / d))

theorem slab_iff {o d lo hi : K} (hd : d ≠ 0) (h : lo ≤ hi) (e t : K) :
    (slabIn o d lo hi - e ≤ t ∧ t ≤ slabOut o d lo hi + e) ↔ lo - e * |d| ≤ o + t * d ∧ o + t * d ≤ hi + e * |d| := by
  have e1 : ∀ x, (x - o) * (1 / d) * d = x - o := fun x => by field_simp
  unfold slabIn slabOut
  rcases lt_or_gt_of_ne hd with hn | hp
  · have h1 : (hi - o) * (1 / d) ≤ (lo - o) * (1 / d) :=
      mul_le_mul_of_nonpos_right (by linarith) (by rw [one_div]; exact inv_nonpos.2 hn.le)
    rw [min_eq_right h1, max_eq_left h1, abs_of_neg hn]
    have h2 := e1 hi; have h3 := e1 lo
    constructor
    · rintro ⟨ha, hb⟩
      have := mul_le_mul_of_nonpos_right ha hn.le
      have := mul_le_mul_of_nonpos_right hb hn.le
      constructor <;> linarith
    · rintro ⟨ha, hb⟩
      constructor
      · by_contra hc; have := mul_lt_mul_of_neg_right (not_le.1 hc) hn; linarith
      · by_contra hc; have := mul_lt_mul_of_neg_right (not_le.1 hc) hn; linarith
  · have h1 : (lo - o) * (1 / d) ≤ (hi - o) * (1 / d) := mul_le_mul_of_nonneg_right (by linarith) (by positivity)
    rw [min_eq_left h1, max_eq_right h1, abs_of_pos hp]
    have h2 := e1 hi; have h3 := e1 lo
    constructor
    · rintro ⟨ha, hb⟩
      have := mul_le_mul_of_nonneg_right ha hp.le
      have := mul_le_mul_of_nonneg_right hb hp.le
      constructor <;> linarith
    · rintro ⟨ha, hb⟩
      constructor
      · exact le_of_mul_le_mul_right (by linarith) hp
      · exact le_of_mul_le_mul_right (by linarith) hp

theorem slabIn_face {o d lo hi : K} (hd : d ≠ 0) : o + slabIn o d lo hi * d = lo ∨ o + slabIn o d lo hi * d = hi := by
  unfold slabIn
  rcases min_choice ((lo - o) * (1 / d)) ((hi - o) * (1 / d)) with h | h <;> rw [h]
  · left; field_simp; ring
  · right; field_simp; ring

theorem slabOut_face {o d lo hi : K} (hd : d ≠ 0) : o + slabOut o d lo hi * d = lo ∨ o + slabOut o d lo hi * d = hi := by
  unfold slabOut
  rcases max_choice ((lo - o) * (1 / d)) ((hi - o) * (1 / d)) with h | h <;> rw [h]
  · left; field_simp; ring
  · right; field_simp; ring

theorem slab_le (o d lo hi : K) : slabIn o d lo hi ≤ slabOut o d lo hi := min_le_max

section
variable [Tol K] [LawfulTol K] [HasLimits K]

/-- What the interval computation returns. -/
theorem interval_cases (o d lo hi : Vec K 3) (hne : ∃ i, isZero (d i) = false) :
    (aabbRayInterval ⟨o, d⟩ ⟨lo, hi⟩ = (.fin HasLimits.maxVal, .fin HasLimits.lowest) ∧
      ∃ i, isZero (d i) = true ∧ (isLess (o i) (lo i) = true ∨ isLess (hi i) (o i) = true)) ∨
    ∃ te tx, aabbRayInterval ⟨o, d⟩ ⟨lo, hi⟩ = (.fin te, .fin tx) ∧
      (∀ i, isZero (d i) = true → isLess (o i) (lo i) = false ∧ isLess (hi i) (o i) = false) ∧
      (∀ i, isZero (d i) = false → slabIn (o i) (d i) (lo i) (hi i) ≤ te ∧ tx ≤ slabOut (o i) (d i) (lo i) (hi i)) ∧
      (∃ i, isZero (d i) = false ∧ te = slabIn (o i) (d i) (lo i) (hi i)) ∧
      (∃ i, isZero (d i) = false ∧ tx = slabOut (o i) (d i) (lo i) (hi i)) := by
  have slab : ∀ i, raySlab (o i) (d i) (lo i) (hi i) =
      if isZero (d i) then (if isLess (o i) (lo i) || isLess (hi i) (o i) then none else some (.negInf, .posInf))
      else some (.fin (slabIn (o i) (d i) (lo i) (hi i)), .fin (slabOut (o i) (d i) (lo i) (hi i))) := by
    intro i
    unfold raySlab slabIn slabOut
    simp only [isGreater_eq, stdMin_eq, stdMax_eq]
  by_cases hout : ∃ i, isZero (d i) = true ∧ (isLess (o i) (lo i) = true ∨ isLess (hi i) (o i) = true)
  · left
    refine ⟨?_, hout⟩
    obtain ⟨i, hz, hi'⟩ := hout
    have hn : raySlab (o i) (d i) (lo i) (hi i) = none := by
      rw [slab, if_pos hz, if_pos]; simpa using hi'
    unfold aabbRayInterval
    simp only
    fin_cases i
    · simp only [Fin.zero_eta] at hn; rw [hn]
    · simp only [Fin.mk_one] at hn; rw [hn]; rcases raySlab (o 0) (d 0) (lo 0) (hi 0) <;> rfl
    · simp only [Fin.reduceFinMk] at hn; rw [hn]
      rcases raySlab (o 0) (d 0) (lo 0) (hi 0) <;> rcases raySlab (o 1) (d 1) (lo 1) (hi 1) <;> rfl
  · right
    have hin : ∀ i, isZero (d i) = true → isLess (o i) (lo i) = false ∧ isLess (hi i) (o i) = false := by
      intro i hz
      constructor
      · by_contra h; exact hout ⟨i, hz, Or.inl (by simpa using h)⟩
      · by_contra h; exact hout ⟨i, hz, Or.inr (by simpa using h)⟩
    have slab' : ∀ i, raySlab (o i) (d i) (lo i) (hi i) = some
        (if isZero (d i) then .negInf else .fin (slabIn (o i) (d i) (lo i) (hi i)),
         if isZero (d i) then .posInf else .fin (slabOut (o i) (d i) (lo i) (hi i))) := by
      intro i
      rw [slab]
      rcases hz : isZero (d i) with _ | _
      · simp
      · have := hin i hz; simp [this.1, this.2]
    set A : Fin 3 → Ext K := fun i => if isZero (d i) then .negInf else .fin (slabIn (o i) (d i) (lo i) (hi i)) with hA
    set B : Fin 3 → Ext K := fun i => if isZero (d i) then .posInf else .fin (slabOut (o i) (d i) (lo i) (hi i)) with hB
    have hint : aabbRayInterval ⟨o, d⟩ ⟨lo, hi⟩ = (Ext.max (A 0) (Ext.max (A 1) (A 2)), Ext.min (B 0) (Ext.min (B 1) (B 2))) := by
      unfold aabbRayInterval
      simp only [slab', hA, hB]
    have ht : ∀ t, Ext.lowB (Ext.max (A 0) (Ext.max (A 1) (A 2))) t ↔ ∀ i, Ext.lowB (A i) t := by
      intro t; rw [Ext.lowB_max, Ext.lowB_max, Fin.forall_fin_succ, Fin.forall_fin_two]; rfl
    have hx : ∀ t, Ext.upB (Ext.min (B 0) (Ext.min (B 1) (B 2))) t ↔ ∀ i, Ext.upB (B i) t := by
      intro t; rw [Ext.upB_min, Ext.upB_min, Fin.forall_fin_succ, Fin.forall_fin_two]; rfl
    have hte : ∃ i, Ext.max (A 0) (Ext.max (A 1) (A 2)) = A i := by
      rcases Ext.max_cases (A 0) (Ext.max (A 1) (A 2)) with h | h
      · exact ⟨0, h⟩
      · rcases Ext.max_cases (A 1) (A 2) with h' | h'
        · exact ⟨1, h.trans h'⟩
        · exact ⟨2, h.trans h'⟩
    have htx : ∃ i, Ext.min (B 0) (Ext.min (B 1) (B 2)) = B i := by
      rcases Ext.min_cases (B 0) (Ext.min (B 1) (B 2)) with h | h
      · exact ⟨0, h⟩
      · rcases Ext.min_cases (B 1) (B 2) with h' | h'
        · exact ⟨1, h.trans h'⟩
        · exact ⟨2, h.trans h'⟩
    obtain ⟨j, hj⟩ := hne
    obtain ⟨a, ha⟩ := hte
    obtain ⟨b, hb⟩ := htx
    have hza : isZero (d a) = false := by
      by_contra hc
      have hc : isZero (d a) = true := by simpa using hc
      have h1 := (ht (slabIn (o j) (d j) (lo j) (hi j) - 1)).1 (by rw [ha]; simp [hA, hc, Ext.lowB]) j
      simp only [hA, hj, Ext.lowB, Bool.false_eq_true, if_false] at h1
      linarith
    have hzb : isZero (d b) = false := by
      by_contra hc
      have hc : isZero (d b) = true := by simpa using hc
      have h1 := (hx (slabOut (o j) (d j) (lo j) (hi j) + 1)).1 (by rw [hb]; simp [hB, hc, Ext.upB]) j
      simp only [hB, hj, Ext.upB, Bool.false_eq_true, if_false] at h1
      linarith
    have hAa : A a = .fin (slabIn (o a) (d a) (lo a) (hi a)) := by simp [hA, hza]
    have hBb : B b = .fin (slabOut (o b) (d b) (lo b) (hi b)) := by simp [hB, hzb]
    refine ⟨_, _, ?_, hin, ?_, ⟨a, hza, rfl⟩, ⟨b, hzb, rfl⟩⟩
    · rw [hint, ha, hb, hAa, hBb]
    · intro i hi0
      constructor
      · have := (ht (slabIn (o a) (d a) (lo a) (hi a))).1 (by rw [ha, hAa]; exact le_refl _) i
        simpa [hA, hi0, Ext.lowB] using this
      · have := (hx (slabOut (o b) (d b) (lo b) (hi b))).1 (by rw [hb, hBb]; exact le_refl _) i
        simpa [hB, hi0, Ext.upB] using this
end
end
end Verif
