import Verif.Proofs.FloatSum
import Verif.Proofs.FloatLength
import Verif.Proofs.RayBox
import Verif.Props.AABB
import Verif.Props.FloatSolid

set_option linter.unusedSectionVars false

/-
C102, C103: boxes and rays in floating point.
-/
namespace Verif
open Spec

section
variable {F : FloatFormat}

/-! ### The box of a list of points and its centre -/

theorem Fl.mul_one_fl (a : Fl F) : a * 1 = a := Fl.ext (by
  rw [Fl.val_mul, show ((1 : Fl F)).1 = 1 from rfl, mul_one, F.rounds.exact a.2])
theorem Fl.mul_zero_fl (a : Fl F) : a * 0 = 0 := Fl.ext (by
  rw [Fl.val_mul, Fl.val_zero, mul_zero, F.rounds.zero])
theorem Fl.add_zero_fl (a : Fl F) : a + 0 = a := Fl.ext (by
  rw [Fl.val_add, Fl.val_zero, add_zero, F.rounds.exact a.2])
theorem Fl.zero_add_fl (a : Fl F) : 0 + a = a := Fl.ext (by
  rw [Fl.val_add, Fl.val_zero, zero_add, F.rounds.exact a.2])

theorem dot_axis_fl (v : Vec (Fl F) 3) (i : Fin 3) : dot v (fun j => if j = i then 1 else 0) = v i := by
  fin_cases i <;> simp [dot, Fin.foldl_succ_last, Fl.mul_one_fl, Fl.mul_zero_fl, Fl.add_zero_fl, Fl.zero_add_fl]

/-- **C102** `make_aabb` is exact in floating point: the corners are the coordinatewise minima and maxima of the given points.  Debug
builds stop exactly if the extent of the points counts as zero in some coordinate. -/
theorem C102_make_aabb [Tol (Fl F)] [HasLimits (Fl F)] (dbg : Bool) (pts : List (Vec (Fl F) 3)) (hne : pts ≠ []) (heq : isEq (1 : Fl F) 1 = true)
    (hlim : ∀ p ∈ pts, ∀ i, HasLimits.lowest ≤ p i ∧ p i ≤ HasLimits.maxVal) :
    ∃ b : AABB (Fl F) 3, (∀ i, IsLeast {x | ∃ p ∈ pts, x = p i} (b.min i) ∧ IsGreatest {x | ∃ p ∈ pts, x = p i} (b.max i)) ∧
      makeAABB dbg pts = if dbg && !b.isValid then .error .assertFailed else .ok b := by
  have hemp : (!pts.isEmpty) = true := by
    cases pts with
    | nil => exact absurd rfl hne
    | cons => rfl
  have hax : ∀ i : Fin 3, ∃ m, extremePointsAlongDirection dbg (fun j => if j = i then (1 : Fl F) else 0) pts = .ok m ∧
      IsLeast {x | ∃ p ∈ pts, x = p i} m.min ∧ IsGreatest {x | ∃ p ∈ pts, x = p i} m.max := by
    intro i
    have hlen : length (fun j : Fin 3 => if j = i then (1 : Fl F) else 0) = 1 := by
      unfold length
      rw [dot_axis_fl, if_pos rfl]
      refine Fl.ext ?_
      rw [Fl.val_sqrt, show ((1 : Fl F)).1 = 1 from rfl, Real.sqrt_one, F.rounds.exact F.one_mem]
    obtain ⟨⟨_, _⟩, h3, h4, h5⟩ := extremeLoop_spec (fun j : Fin 3 => if j = i then (1 : Fl F) else 0)
      ⟨HasLimits.maxVal, HasLimits.lowest⟩ pts
    simp only [dot_axis_fl] at h3 h4 h5
    obtain ⟨q, hq⟩ := List.exists_mem_of_ne_nil pts hne
    refine ⟨extremeLoop (fun j => if j = i then 1 else 0) ⟨HasLimits.maxVal, HasLimits.lowest⟩ pts, ?_, ⟨?_, ?_⟩, ⟨?_, ?_⟩⟩
    · simp only [extremePointsAlongDirection, hlen, hemp, heq]
      cases dbg <;> rfl
    · rcases h4 with h | ⟨p, hp, h⟩
      · exact ⟨q, hq, le_antisymm (h3 q hq).1 (by rw [h]; exact (hlim q hq i).2)⟩
      · exact ⟨p, hp, h⟩
    · rintro x ⟨p, hp, rfl⟩; exact (h3 p hp).1
    · rcases h5 with h | ⟨p, hp, h⟩
      · exact ⟨q, hq, le_antisymm (by rw [h]; exact (hlim q hq i).1) (h3 q hq).2⟩
      · exact ⟨p, hp, h⟩
    · rintro x ⟨p, hp, rfl⟩; exact (h3 p hp).2
  obtain ⟨m0, a0, b0, c0⟩ := hax 0
  obtain ⟨m1, a1, b1, c1⟩ := hax 1
  obtain ⟨m2, a2, b2, c2⟩ := hax 2
  refine ⟨⟨fun i => if i = 0 then m0.min else if i = 1 then m1.min else m2.min,
    fun i => if i = 0 then m0.max else if i = 1 then m1.max else m2.max⟩, ?_, ?_⟩
  · intro i
    fin_cases i
    · exact ⟨b0, c0⟩
    · exact ⟨b1, c1⟩
    · exact ⟨b2, c2⟩
  · simp only [makeAABB, a0, a1, a2, hemp, AABB.mk?, ok_bind, geoAssert_true, geoAssert_bind]
    rfl

/-- **C102** The centre of a box lies in the box, in every format, however thin, tiny or far away the box is. -/
theorem C102_center {D : ℕ} (b : AABB (Fl F) D) (h : ∀ i, b.min i ≤ b.max i) (i : Fin D) : b.min i ≤ b.center i ∧ b.center i ≤ b.max i := by
  have hc : (b.center i).1 = F.rnd ((b.min i).1 + F.rnd ((b.max i - b.min i).1 / (2 : Fl F).1)) := rfl
  rw [F.two_exact] at hc
  rw [Fl.le_iff, Fl.le_iff, hc]
  constructor
  · refine F.rounds.le_of (b.min i).2 ?_
    have h1 : 0 ≤ (b.max i - b.min i).1 := by
      rw [Fl.val_sub]
      refine F.rounds.nonneg ?_
      have := (Fl.le_iff _ _).1 (h i)
      linarith
    have := F.rounds.nonneg (x := (b.max i - b.min i).1 / 2) (by linarith)
    linarith
  · refine F.rounds.of_le (b.max i).2 ?_
    have := Fl.half_sub_le (h i)
    linarith

/-- **C102** and it is within four units of roundoff of the exact centre, relative to the largest coordinate of the box. -/
theorem C102_center_accuracy {D : ℕ} (b : AABB (Fl F) D) (i : Fin D) {B : ℝ} (h1 : |(b.min i).1| ≤ B) (h2 : |(b.max i).1| ≤ B)
    (hu : F.unit ≤ 1 / 16) : |(b.center i).1 - ((b.min i).1 + (b.max i).1) / 2| ≤ 4 * F.unit * B + 2 * F.tiny := by
  have hc : (b.center i).1 = F.rnd ((b.min i).1 + F.rnd ((b.max i - b.min i).1 / (2 : Fl F).1)) := rfl
  rw [F.two_exact] at hc
  have hu0 := F.unit_pos
  have ht0 := F.tiny_nonneg
  have hB := (abs_nonneg _).trans h1
  set m := (b.min i).1
  set M := (b.max i).1
  have e1 := Fl.sub_rel (b.max i) (b.min i)
  have x2 : |M - m| ≤ 2 * B := by
    have := abs_sub M m
    linarith
  set d := (b.max i - b.min i).1
  have e2 : |d / 2 - (M - m) / 2| ≤ F.unit * B := by
    rw [← sub_div, abs_div, abs_two]
    have := mul_le_mul_of_nonneg_left x2 hu0.le
    change |d - (M - m)| ≤ F.unit * |M - m| at e1
    linarith
  have e3 := F.err_of e2 (show |(M - m) / 2| ≤ B by rw [abs_div, abs_two]; linarith)
  have x4 : |(m + M) / 2| ≤ B := by
    rw [abs_div, abs_two]
    have := abs_add_le m M
    linarith
  have e4 : |m + F.rnd (d / 2) - (m + M) / 2| ≤ F.unit * B + F.unit * (B + F.unit * B) + F.tiny := by
    rwa [show m + F.rnd (d / 2) - (m + M) / 2 = F.rnd (d / 2) - (M - m) / 2 by ring]
  -- the last sum has a relative error
  have e5 : |F.rnd (m + F.rnd (d / 2)) - (m + F.rnd (d / 2))| ≤ F.unit * |m + F.rnd (d / 2)| :=
    Fl.add_rel (b.min i) (Fl.round (d / 2))
  rw [hc]
  have x5 : |m + F.rnd (d / 2)| ≤ B + (F.unit * B + F.unit * (B + F.unit * B) + F.tiny) := by
    have := abs_sub_abs_le_abs_sub (m + F.rnd (d / 2)) ((m + M) / 2)
    linarith
  have e6 : |F.rnd (m + F.rnd (d / 2)) - (m + M) / 2| ≤
      |F.rnd (m + F.rnd (d / 2)) - (m + F.rnd (d / 2))| + |m + F.rnd (d / 2) - (m + M) / 2| := by
    rw [show F.rnd (m + F.rnd (d / 2)) - (m + M) / 2 =
      (F.rnd (m + F.rnd (d / 2)) - (m + F.rnd (d / 2))) + (m + F.rnd (d / 2) - (m + M) / 2) by ring]
    exact abs_add_le _ _
  have y1 := mul_le_mul_of_nonneg_left x5 hu0.le
  have y2 : F.unit * (F.unit * B) ≤ 1 / 16 * (F.unit * B) := mul_le_mul_of_nonneg_right hu (by positivity)
  have y3 : F.unit * (F.unit * (F.unit * B)) ≤ 1 / 16 * (F.unit * (F.unit * B)) := mul_le_mul_of_nonneg_right hu (by positivity)
  have y4 : F.unit * F.tiny ≤ 1 / 16 * F.tiny := mul_le_mul_of_nonneg_right hu ht0
  have y5 : 0 ≤ F.unit * B := by positivity
  have e : F.unit * (B + (F.unit * B + F.unit * (B + F.unit * B) + F.tiny)) =
    F.unit * B + 2 * (F.unit * (F.unit * B)) + F.unit * (F.unit * (F.unit * B)) + F.unit * F.tiny := by ring
  rw [e] at y1
  have e' : F.unit * (B + F.unit * B) = F.unit * B + F.unit * (F.unit * B) := by ring
  rw [e'] at e4
  linarith

/-! ### Rays -/

/-- What is assumed about the tolerant comparisons of floating point numbers: they never contradict the exact order by themselves, and
numbers that differ by `τ` count as different. -/
structure FlTol (F : FloatFormat) [Tol (Fl F)] (τ : ℝ) : Prop where
  less : ∀ a b : Fl F, b.1 ≤ a.1 → isLess a b = false
  greater : ∀ a b : Fl F, a.1 ≤ b.1 → isGreater a b = false
  lessEq : ∀ a b : Fl F, a.1 ≤ b.1 → isLessEq a b = true
  greaterEq : ∀ a b : Fl F, b.1 ≤ a.1 → isGreaterEq a b = true
  notGreaterEq : ∀ a b : Fl F, a.1 + τ ≤ b.1 → isGreaterEq a b = false

/-- The parameter at which a ray reaches a plane `x i = a`, as computed. -/
theorem param_err {a o d : Fl F} (hd : d.1 ≠ 0) (hd2 : |d.1| ≤ 2) (hu : F.unit ≤ 1 / 64) (ht : F.tiny ≤ F.unit * F.unit) :
    |((a - o) * (1 / d)).1 - (a.1 - o.1) * (1 / d.1)| ≤ 4 * F.unit * |(a.1 - o.1) * (1 / d.1)| + F.tiny := by
  have hu0 := F.unit_pos
  have ht0 := F.tiny_nonneg
  have h1 := Fl.sub_rel a o
  have hdp : 0 < |d.1| := abs_pos.2 hd
  have hinv : 1 / 2 ≤ |1 / d.1| := by
    rw [abs_div, abs_one]
    exact div_le_div_of_nonneg_left (by norm_num) hdp hd2
  have h2 : |(1 / d).1 - 1 / d.1| ≤ 33 / 32 * F.unit * |1 / d.1| := by
    have e : (1 / d).1 = F.rnd (1 / d.1) := rfl
    rw [e]
    refine (F.err _).trans ?_
    have : F.unit * F.unit ≤ 1 / 64 * F.unit := mul_le_mul_of_nonneg_right hu hu0.le
    have h3 : F.unit * (1 / 2) ≤ F.unit * |1 / d.1| := mul_le_mul_of_nonneg_left hinv hu0.le
    linarith
  have h3 := mul_err h1 h2 le_rfl le_rfl
  refine h3.trans ?_
  rw [abs_mul]
  set X := |a.1 - o.1|
  set Y := |1 / d.1|
  have hXY : 0 ≤ X * Y := by positivity
  set P := X * Y
  have e1 : F.unit * X * Y + X * (33 / 32 * F.unit * Y) + F.unit * X * (33 / 32 * F.unit * Y)
      = 65 / 32 * (F.unit * P) + 33 / 32 * (F.unit * (F.unit * P)) := by simp only [P]; ring
  rw [e1]
  have e2 : F.unit * (X * Y + (65 / 32 * (F.unit * P) + 33 / 32 * (F.unit * (F.unit * P)))) =
      F.unit * P + 65 / 32 * (F.unit * (F.unit * P)) + 33 / 32 * (F.unit * (F.unit * (F.unit * P))) := by simp only [P]; ring
  rw [e2]
  have y2 : F.unit * (F.unit * P) ≤ 1 / 64 * (F.unit * P) := mul_le_mul_of_nonneg_right hu (by positivity)
  have y3 : F.unit * (F.unit * (F.unit * P)) ≤ 1 / 64 * (F.unit * (F.unit * P)) := mul_le_mul_of_nonneg_right hu (by positivity)
  have y5 : 0 ≤ F.unit * P := by positivity
  linarith

/-- Its sign is right. -/
theorem param_sign {a o d : Fl F} (hd : d.1 ≠ 0) (h : 0 ≤ (a.1 - o.1) * (1 / d.1)) : 0 ≤ ((a - o) * (1 / d)).1 := by
  have e : ((a - o) * (1 / d)).1 = F.rnd (F.rnd (a.1 - o.1) * F.rnd (1 / d.1)) := rfl
  rw [e]
  refine F.rounds.nonneg ?_
  rcases lt_or_gt_of_ne hd with hn | hp
  · have h1 : 1 / d.1 < 0 := one_div_neg.2 hn
    have h2 : a.1 - o.1 ≤ 0 := by
      by_contra hc
      have := mul_neg_of_pos_of_neg (not_le.1 hc) h1
      linarith
    have h3 := F.rounds.mono h2
    have h4 := F.rounds.mono h1.le
    rw [F.rounds.zero] at h3 h4
    exact mul_nonneg_of_nonpos_of_nonpos h3 h4
  · have h1 : 0 < 1 / d.1 := one_div_pos.2 hp
    have h2 : 0 ≤ a.1 - o.1 := by
      by_contra hc
      have := mul_neg_of_neg_of_pos (not_le.1 hc) h1
      linarith
    exact mul_nonneg (F.rounds.nonneg h2) (F.rounds.nonneg h1.le)

theorem Ext.max_ne_negInf {T : Type*} [LinearOrder T] {a b : Ext T} (h : Ext.max a b = .negInf) : a = .negInf ∧ b = .negInf := by
  unfold Ext.max at h
  cases a <;> cases b <;> simp [Ext.ltb] at h ⊢
  split at h <;> cases h

theorem Ext.min_ne_posInf {T : Type*} [LinearOrder T] {a b : Ext T} (h : Ext.min a b = .posInf) : a = .posInf ∧ b = .posInf := by
  unfold Ext.min at h
  cases a <;> cases b <;> simp [Ext.ltb] at h ⊢
  split at h <;> cases h

/-- The computed interval for a ray that is not outside of a slab it is parallel to. -/
theorem interval_fl {T : Type} [LinearOrder T] [Zero T] [One T] [Add T] [Sub T] [Mul T] [Div T] [Tol T] [HasLimits T] (o d lo hi : Vec T 3)
    (hne : ∃ i, isZero (d i) = false) (hin : ∀ i, isZero (d i) = true → isLess (o i) (lo i) = false ∧ isGreater (o i) (hi i) = false) :
    ∃ te tx, aabbRayInterval ⟨o, d⟩ ⟨lo, hi⟩ = (.fin te, .fin tx) ∧
      (∀ i, isZero (d i) = false → min ((lo i - o i) * (1 / d i)) ((hi i - o i) * (1 / d i)) ≤ te ∧
        tx ≤ max ((lo i - o i) * (1 / d i)) ((hi i - o i) * (1 / d i))) ∧
      (∃ i, isZero (d i) = false ∧ te = min ((lo i - o i) * (1 / d i)) ((hi i - o i) * (1 / d i))) ∧
      (∃ i, isZero (d i) = false ∧ tx = max ((lo i - o i) * (1 / d i)) ((hi i - o i) * (1 / d i))) := by
  set I : Fin 3 → T := fun i => min ((lo i - o i) * (1 / d i)) ((hi i - o i) * (1 / d i)) with hI
  set O : Fin 3 → T := fun i => max ((lo i - o i) * (1 / d i)) ((hi i - o i) * (1 / d i)) with hO
  set A : Fin 3 → Ext T := fun i => if isZero (d i) then .negInf else .fin (I i) with hA
  set B : Fin 3 → Ext T := fun i => if isZero (d i) then .posInf else .fin (O i) with hB
  have slab : ∀ i, raySlab (o i) (d i) (lo i) (hi i) = some (A i, B i) := by
    intro i
    unfold raySlab
    simp only [hA, hB, hI, hO, stdMin_eq, stdMax_eq]
    rcases hz : isZero (d i) with _ | _
    · simp
    · have := hin i hz; simp [this.1, this.2]
  have hint : aabbRayInterval ⟨o, d⟩ ⟨lo, hi⟩ = (Ext.max (A 0) (Ext.max (A 1) (A 2)), Ext.min (B 0) (Ext.min (B 1) (B 2))) := by
    unfold aabbRayInterval
    simp only [slab]
  have ht : ∀ t, Ext.lowB (Ext.max (A 0) (Ext.max (A 1) (A 2))) t ↔ ∀ i, Ext.lowB (A i) t := by
    intro t; rw [Ext.lowB_max, Ext.lowB_max, Fin.forall_fin_succ, Fin.forall_fin_two]; rfl
  have hx : ∀ t, Ext.upB (Ext.min (B 0) (Ext.min (B 1) (B 2))) t ↔ ∀ i, Ext.upB (B i) t := by
    intro t; rw [Ext.upB_min, Ext.upB_min, Fin.forall_fin_succ, Fin.forall_fin_two]; rfl
  have hte : ∃ i, Ext.max (A 0) (Ext.max (A 1) (A 2)) = A i := by
    rcases Ext.max_cases (A 0) (Ext.max (A 1) (A 2)) with h | h
    · exact ⟨0, h⟩
    · rcases Ext.max_cases (A 1) (A 2) with h' | h'
      · exact ⟨1, h.trans h'⟩
      · exact ⟨2, h.trans h'⟩
  have htx : ∃ i, Ext.min (B 0) (Ext.min (B 1) (B 2)) = B i := by
    rcases Ext.min_cases (B 0) (Ext.min (B 1) (B 2)) with h | h
    · exact ⟨0, h⟩
    · rcases Ext.min_cases (B 1) (B 2) with h' | h'
      · exact ⟨1, h.trans h'⟩
      · exact ⟨2, h.trans h'⟩
  obtain ⟨j, hj⟩ := hne
  obtain ⟨a, ha⟩ := hte
  obtain ⟨b, hb⟩ := htx
  have hza : isZero (d a) = false := by
    by_contra hc
    have hc : isZero (d a) = true := by simpa using hc
    rw [show A a = .negInf by simp [hA, hc]] at ha
    obtain ⟨h0, h12⟩ := Ext.max_ne_negInf ha
    obtain ⟨h1, h2⟩ := Ext.max_ne_negInf h12
    have : ∀ i, A i = .negInf := by intro i; fin_cases i <;> assumption
    have := this j
    simp [hA, hj] at this
  have hzb : isZero (d b) = false := by
    by_contra hc
    have hc : isZero (d b) = true := by simpa using hc
    rw [show B b = .posInf by simp [hB, hc]] at hb
    obtain ⟨h0, h12⟩ := Ext.min_ne_posInf hb
    obtain ⟨h1, h2⟩ := Ext.min_ne_posInf h12
    have : ∀ i, B i = .posInf := by intro i; fin_cases i <;> assumption
    have := this j
    simp [hB, hj] at this
  have hAa : A a = .fin (I a) := by simp [hA, hza]
  have hBb : B b = .fin (O b) := by simp [hB, hzb]
  refine ⟨I a, O b, by rw [hint, ha, hb, hAa, hBb], ?_, ⟨a, hza, rfl⟩, ⟨b, hzb, rfl⟩⟩
  intro i hi0
  constructor
  · have := (ht (I a)).1 (by rw [ha, hAa]; exact le_refl (I a)) i
    simp only [hA, hi0, Ext.lowB, Bool.false_eq_true, if_false] at this
    exact this
  · have := (hx (O b)).1 (by rw [hb, hBb]; exact le_refl (O b)) i
    simp only [hB, hi0, Ext.upB, Bool.false_eq_true, if_false] at this
    exact this

/-- Monotone widening of a parameter. -/
theorem widen_mono {u t x y : ℝ} (hu0 : 0 ≤ u) (hu : 4 * u ≤ 1) (h : x ≤ y) :
    x + (4 * u * |x| + t) ≤ y + (4 * u * |y| + t) ∧ x - (4 * u * |x| + t) ≤ y - (4 * u * |y| + t) := by
  have h1 := abs_sub_abs_le_abs_sub x y
  have h2 := abs_sub_abs_le_abs_sub y x
  rw [abs_sub_comm y x] at h2
  rw [abs_of_nonpos (show x - y ≤ 0 by linarith)] at h1 h2
  have h3 : 4 * u * (|x| - |y|) ≤ y - x := by
    calc 4 * u * (|x| - |y|) ≤ 4 * u * (y - x) := mul_le_mul_of_nonneg_left (by linarith) (by linarith)
      _ ≤ 1 * (y - x) := mul_le_mul_of_nonneg_right hu (by linarith)
      _ = y - x := one_mul _
  have h4 : 4 * u * (|y| - |x|) ≤ y - x := by
    calc 4 * u * (|y| - |x|) ≤ 4 * u * (y - x) := mul_le_mul_of_nonneg_left (by linarith) (by linarith)
      _ ≤ 1 * (y - x) := mul_le_mul_of_nonneg_right hu (by linarith)
      _ = y - x := one_mul _
  constructor <;> linarith

theorem min_err {u t x y x' y' : ℝ} (hu0 : 0 ≤ u) (hu : 4 * u ≤ 1) (hx : |x' - x| ≤ 4 * u * |x| + t) (hy : |y' - y| ≤ 4 * u * |y| + t) :
    |min x' y' - min x y| ≤ 4 * u * |min x y| + t := by
  obtain ⟨a1, a2⟩ := abs_le.1 hx
  obtain ⟨b1, b2⟩ := abs_le.1 hy
  rcases min_cases x y with ⟨h, h'⟩ | ⟨h, h'⟩ <;> rw [h]
  · have := (widen_mono (t := t) hu0 hu h').2
    rw [abs_le]
    constructor
    · rcases min_choice x' y' with h2 | h2 <;> rw [h2] <;> linarith
    · linarith [min_le_left x' y']
  · have := (widen_mono (t := t) hu0 hu h'.le).2
    rw [abs_le]
    constructor
    · rcases min_choice x' y' with h2 | h2 <;> rw [h2] <;> linarith
    · linarith [min_le_right x' y']

theorem max_err {u t x y x' y' : ℝ} (hu0 : 0 ≤ u) (hu : 4 * u ≤ 1) (hx : |x' - x| ≤ 4 * u * |x| + t) (hy : |y' - y| ≤ 4 * u * |y| + t) :
    |max x' y' - max x y| ≤ 4 * u * |max x y| + t := by
  have h := min_err (t := t) (x := -x) (y := -y) (x' := -x') (y' := -y') hu0 hu (by rwa [abs_neg, show -x' - -x = -(x' - x) by ring, abs_neg])
    (by rwa [abs_neg, show -y' - -y = -(y' - y) by ring, abs_neg])
  rwa [min_neg_neg, min_neg_neg, abs_neg, show -max x' y' - -max x y = -(max x' y' - max x y) by ring, abs_neg] at h

theorem val_min (a b : Fl F) : (min a b).1 = min a.1 b.1 := by
  rcases le_total a b with h | h
  · rw [min_eq_left h, min_eq_left ((Fl.le_iff _ _).1 h)]
  · rw [min_eq_right h, min_eq_right ((Fl.le_iff _ _).1 h)]

theorem val_max (a b : Fl F) : (max a b).1 = max a.1 b.1 := by
  rcases le_total a b with h | h
  · rw [max_eq_right h, max_eq_right ((Fl.le_iff _ _).1 h)]
  · rw [max_eq_left h, max_eq_left ((Fl.le_iff _ _).1 h)]

/-- The point at a computed parameter. -/
theorem point_err {o d s : Fl F} {t : ℝ} (hu : F.unit ≤ 1 / 64) (hd : |d.1| ≤ 2) (hs : |s.1 - t| ≤ 4 * F.unit * |t| + F.tiny) :
    |(o + d * s).1 - (o.1 + t * d.1)| ≤ F.unit * (|o.1 + t * d.1| + 6 * |t * d.1|) + 5 * F.tiny := by
  have hu0 := F.unit_pos
  have ht0 := F.tiny_nonneg
  have h1 := mul_err (a := d) (x := d.1) (d := 0) (by simp) hs le_rfl le_rfl
  have h2 : |(o + d * s).1 - (o + d * s).1| = 0 := by simp
  have h3 := Fl.add_rel o (d * s)
  set p := (d * s).1
  rw [abs_mul, mul_comm |t|] 
  set S := |d.1| * |t| with hS
  have hS0 : 0 ≤ S := by positivity
  have e1 : (0 * |t| + |d.1| * (4 * F.unit * |t| + F.tiny) + 0 * (4 * F.unit * |t| + F.tiny)) = 4 * (F.unit * S) + |d.1| * F.tiny := by
    rw [hS]; ring
  rw [e1] at h1
  have y1 : |d.1| * F.tiny ≤ 2 * F.tiny := mul_le_mul_of_nonneg_right hd ht0
  have y2 : F.unit * (F.unit * S) ≤ 1 / 64 * (F.unit * S) := mul_le_mul_of_nonneg_right hu (by positivity)
  have y3 : F.unit * (|d.1| * F.tiny) ≤ 1 / 64 * (|d.1| * F.tiny) := mul_le_mul_of_nonneg_right hu (by positivity)
  have e2 : F.unit * (S + (4 * (F.unit * S) + |d.1| * F.tiny)) = F.unit * S + 4 * (F.unit * (F.unit * S)) + F.unit * (|d.1| * F.tiny) := by ring
  rw [e2] at h1
  have y4 : 0 ≤ F.unit * S := by positivity
  have h4 : |p - d.1 * t| ≤ 41 / 8 * (F.unit * S) + 25 / 8 * F.tiny := by
    refine h1.trans ?_
    linarith
  have h5 : |o.1 + p| ≤ |o.1 + t * d.1| + |p - d.1 * t| := by
    have := abs_sub_abs_le_abs_sub (o.1 + p) (o.1 + t * d.1)
    rw [show o.1 + p - (o.1 + t * d.1) = p - d.1 * t by ring] at this
    linarith
  have h6 : |(o + d * s).1 - (o.1 + t * d.1)| ≤ |(o + d * s).1 - (o.1 + p)| + |p - d.1 * t| := by
    rw [show (o + d * s).1 - (o.1 + t * d.1) = ((o + d * s).1 - (o.1 + p)) + (p - d.1 * t) by ring]
    exact abs_add_le _ _
  have h7 := mul_le_mul_of_nonneg_left h5 hu0.le
  have h8 := mul_le_mul_of_nonneg_right hu (abs_nonneg (p - d.1 * t))
  have e3 : F.unit * (|o.1 + t * d.1| + |p - d.1 * t|) = F.unit * |o.1 + t * d.1| + F.unit * |p - d.1 * t| := by ring
  rw [e3] at h7
  have e4 : F.unit * (|o.1 + t * d.1| + 6 * S) = F.unit * |o.1 + t * d.1| + 6 * (F.unit * S) := by ring
  rw [e4]
  linarith

/-- **C103** A line through a box is inside the box exactly for the parameters from `te` to `tx`.  If this stretch is longer than the
tolerance and the error bounds, intersecting the ray and the box in floating point never fails, the test says yes if `0 ≤ tx`, the points
where the ray enters and leaves are reported if they are on the ray, and each of their coordinates is within `u (|p i| + 6 |t d i|)` of the
exact coordinate `p i`.  If the ray starts inside of the box, farther than tolerance and error bound behind the enter point, that is not
reported. -/
theorem C103_accuracy [Tol (Fl F)] [HasLimits (Fl F)] (dbg : Bool) (o d lo hi : Vec (Fl F) 3) {τ te tx : ℝ} (hτ : FlTol F τ)
    (hp : 6 ≤ F.prec) (ht : F.tiny ≤ F.unit * F.unit) (hbox : ∀ i, lo i ≤ hi i) (hne : ∃ i, (d i).1 ≠ 0)
    (hd : ∀ i, |(d i).1| ≤ 2 ∧ (isZero (d i) = true ↔ (d i).1 = 0)) (hle : te ≤ tx)
    (hchord : ∀ t, Spec.inBox (fun i => (lo i).1) (fun i => (hi i).1) 0 (Spec.pointAt (fun i => (o i).1) (fun i => (d i).1) t) ↔ te ≤ t ∧ t ≤ tx)
    (hlen : te + τ + 4 * F.unit * (|te| + |tx|) + 2 * F.tiny ≤ tx) (hτ0 : 0 ≤ τ) :
    ∃ r, intersectRayBox dbg ⟨o, d⟩ ⟨lo, hi⟩ = .ok r ∧
      (0 ≤ tx → isIntersectingRayBox ⟨o, d⟩ ⟨lo, hi⟩ = true ∧ ∃ q, r.exit = some q ∧ ∀ i,
        |(q i).1 - ((o i).1 + tx * (d i).1)| ≤ F.unit * (|(o i).1 + tx * (d i).1| + 6 * |tx * (d i).1|) + 5 * F.tiny) ∧
      (0 ≤ te → ∃ p, r.enter = some p ∧ ∀ i,
        |(p i).1 - ((o i).1 + te * (d i).1)| ≤ F.unit * (|(o i).1 + te * (d i).1| + 6 * |te * (d i).1|) + 5 * F.tiny) ∧
      (te + τ + 4 * F.unit * |te| + F.tiny ≤ 0 → r.enter = none) := by
  have hu0 := F.unit_pos
  have ht0 := F.tiny_nonneg
  have hu : F.unit ≤ 1 / 64 := by
    unfold FloatFormat.unit
    calc (2 : ℝ)⁻¹ ^ F.prec ≤ 2⁻¹ ^ 6 := pow_le_pow_of_le_one (by norm_num) (by norm_num) hp
      _ = 1 / 64 := by norm_num
  have hnz : ∀ i, isZero (d i) = false ↔ (d i).1 ≠ 0 := fun i => by
    rw [← Bool.not_eq_true, (hd i).2]
  -- the exact parameters
  set I : Fin 3 → ℝ := fun i => slabIn (o i).1 (d i).1 (lo i).1 (hi i).1 with hI
  set O : Fin 3 → ℝ := fun i => slabOut (o i).1 (d i).1 (lo i).1 (hi i).1 with hO
  have hb : ∀ i, (lo i).1 ≤ (hi i).1 := hbox
  have slab : ∀ i t, (d i).1 ≠ 0 → (Spec.inInterval (lo i).1 (hi i).1 0 (Spec.pointAt (fun i => (o i).1) (fun i => (d i).1) t i) ↔
      I i ≤ t ∧ t ≤ O i) := by
    intro i t h
    have := slab_iff h (hb i) (o := (o i).1) 0 t
    simp only [sub_zero, add_zero, zero_mul] at this
    simp only [Spec.inInterval, Spec.pointAt, sub_zero, add_zero]
    exact this.symm
  have hte := (hchord te).2 ⟨le_rfl, hle⟩
  have htx := (hchord tx).2 ⟨hle, le_rfl⟩
  have par : ∀ i, (d i).1 = 0 → (lo i).1 ≤ (o i).1 ∧ (o i).1 ≤ (hi i).1 := by
    intro i h
    have := hte i
    simpa [Spec.inInterval, Spec.pointAt, h] using this
  have inb : ∀ t, (∀ i, (d i).1 ≠ 0 → I i ≤ t ∧ t ≤ O i) → te ≤ t ∧ t ≤ tx := by
    intro t h
    refine (hchord t).1 fun i => ?_
    by_cases h0 : (d i).1 = 0
    · have := par i h0
      simpa [Spec.inInterval, Spec.pointAt, h0] using this
    · exact (slab i t h0).2 (h i h0)
  have bI : ∀ i, (d i).1 ≠ 0 → I i ≤ te ∧ tx ≤ O i := fun i h => ⟨((slab i te h).1 (hte i)).1, ((slab i tx h).1 (htx i)).2⟩
  have hfin : (Finset.univ.filter fun i => (d i).1 ≠ 0).Nonempty := by
    obtain ⟨j, hj⟩ := hne
    exact ⟨j, by simpa using hj⟩
  obtain ⟨a, ha, hamax⟩ := Finset.exists_max_image _ I hfin
  obtain ⟨b, hbb, hbmin⟩ := Finset.exists_min_image _ O hfin
  simp only [Finset.mem_filter, Finset.mem_univ, true_and] at ha hamax hbb hbmin
  have hteI : te = I a := le_antisymm (inb (I a) fun i h => ⟨hamax i h, by
    have := (bI i h).2; have := (bI a ha).1; linarith⟩).1 (bI a ha).1
  have htxO : tx = O b := le_antisymm (bI b hbb).2 (inb (O b) fun i h => ⟨by
    have := (bI i h).1; have := (bI b hbb).2; linarith, hbmin i h⟩).2
  -- the computed ones
  obtain ⟨te', tx', hint, hB, ⟨j, hj, hj'⟩, ⟨l, hl, hl'⟩⟩ := interval_fl o d lo hi (by
    obtain ⟨i, h⟩ := hne; exact ⟨i, (hnz i).2 h⟩) (fun i hz => by
      have := par i ((hd i).2.1 hz)
      exact ⟨hτ.less _ _ this.1, hτ.greater _ _ this.2⟩)
  have pe : ∀ i (h : (d i).1 ≠ 0) (x : Fl F), |((x - o i) * (1 / d i)).1 - (x.1 - (o i).1) * (1 / (d i).1)| ≤
      4 * F.unit * |(x.1 - (o i).1) * (1 / (d i).1)| + F.tiny := fun i h x => param_err h (hd i).1 hu ht
  have eI : ∀ i, (d i).1 ≠ 0 → |(min ((lo i - o i) * (1 / d i)) ((hi i - o i) * (1 / d i))).1 - I i| ≤ 4 * F.unit * |I i| + F.tiny := by
    intro i h
    rw [val_min]
    exact min_err hu0.le (by linarith) (pe i h _) (pe i h _)
  have eO : ∀ i, (d i).1 ≠ 0 → |(max ((lo i - o i) * (1 / d i)) ((hi i - o i) * (1 / d i))).1 - O i| ≤ 4 * F.unit * |O i| + F.tiny := by
    intro i h
    rw [val_max]
    exact max_err hu0.le (by linarith) (pe i h _) (pe i h _)
  have h4u : 4 * F.unit ≤ 1 := by linarith
  have ete : |te'.1 - te| ≤ 4 * F.unit * |te| + F.tiny := by
    rw [abs_le]
    constructor
    · have h1 := (Fl.le_iff _ _).1 (hB a ((hnz a).2 ha)).1
      have h2 := (abs_le.1 (eI a ha)).1
      rw [hteI]; linarith
    · have h1 := (abs_le.1 (eI j ((hnz j).1 hj))).2
      rw [← hj'] at h1
      have h2 := (widen_mono (t := F.tiny) hu0.le h4u (bI j ((hnz j).1 hj)).1).1
      linarith
  have etx : |tx'.1 - tx| ≤ 4 * F.unit * |tx| + F.tiny := by
    rw [abs_le]
    constructor
    · have h1 := (abs_le.1 (eO l ((hnz l).1 hl))).1
      rw [← hl'] at h1
      have h2 := (widen_mono (t := F.tiny) hu0.le h4u (bI l ((hnz l).1 hl)).2).2
      linarith
    · have h1 := (Fl.le_iff _ _).1 (hB b ((hnz b).2 hbb)).2
      have h2 := (abs_le.1 (eO b hbb)).2
      rw [htxO]; linarith
  have ste : 0 ≤ te → 0 ≤ te'.1 := by
    intro h
    refine le_trans ?_ ((Fl.le_iff _ _).1 (hB a ((hnz a).2 ha)).1)
    rw [val_min]
    rw [hteI, hI] at h
    have h := le_min_iff.1 h
    exact le_min (param_sign ha h.1) (param_sign ha h.2)
  have stx : 0 ≤ tx → 0 ≤ tx'.1 := by
    intro h
    have h := h.trans (bI l ((hnz l).1 hl)).2
    rw [hl', val_max]
    rcases le_max_iff.1 h with h | h
    · exact le_max_of_le_left (param_sign ((hnz l).1 hl) h)
    · exact le_max_of_le_right (param_sign ((hnz l).1 hl) h)
  have hlt : te'.1 + τ ≤ tx'.1 := by
    have h1 := (abs_le.1 ete).2
    have h2 := (abs_le.1 etx).1
    have e : 4 * F.unit * (|te| + |tx|) = 4 * F.unit * |te| + 4 * F.unit * |tx| := by ring
    linarith
  refine ⟨⟨if isGreaterEq te' 0 then some (vadd o (vscale d te')) else none, if isGreaterEq tx' 0 then some (vadd o (vscale d tx')) else none⟩,
    ?_, ?_, ?_, ?_⟩
  · unfold intersectRayBox ordinateToPoint
    rw [hint]
    simp only [Ext.isGreaterEq, hτ.notGreaterEq _ _ hlt]
    rcases Bool.eq_false_or_eq_true (isGreaterEq te' 0) with h1 | h1 <;> rcases Bool.eq_false_or_eq_true (isGreaterEq tx' 0) with h2 | h2 <;>
      simp [h1, h2, geoAssert_true] <;> rfl
  · intro h
    have h1 : isGreaterEq tx' 0 = true := hτ.greaterEq _ _ (stx h)
    refine ⟨?_, vadd o (vscale d tx'), by simp only [h1, if_true], fun i => point_err hu (hd i).1 etx⟩
    unfold isIntersectingRayBox
    rw [hint]
    simp only [Ext.isGreaterEq, Ext.isLessEq, h1, hτ.lessEq te' tx' (by linarith), Bool.and_self]
  · intro h
    have h1 : isGreaterEq te' 0 = true := hτ.greaterEq _ _ (ste h)
    exact ⟨vadd o (vscale d te'), by simp only [h1, if_true], fun i => point_err hu (hd i).1 ete⟩
  · intro h
    have h1 : isGreaterEq te' 0 = false := hτ.notGreaterEq _ _ (by
      have := (abs_le.1 ete).2
      rw [Fl.val_zero]
      linarith)
    simp only [h1, Bool.false_eq_true, if_false]
end

section Examples
attribute [local instance] tol64
noncomputable local instance : HasLimits (Fl binary64) := ⟨fl64 (10 ^ 9), fl64 (-10 ^ 9)⟩

theorem tiny64 : binary64.tiny ≤ binary64.unit * binary64.unit := by
  show (2 : ℝ) ^ (-1074 : ℤ) ≤ (2 : ℝ)⁻¹ ^ 53 * (2 : ℝ)⁻¹ ^ 53
  rw [← pow_add, inv_pow, ← zpow_natCast, ← zpow_neg]
  exact zpow_le_zpow_right₀ (by norm_num) (by norm_num)

theorem flTol64 : FlTol binary64 (2 / 10 ^ 6) where
  less a b h := decide_eq_false (by rw [not_lt]; have : (0 : ℝ) < 1 / 10 ^ 6 := by norm_num
                                    linarith)
  greater a b h := decide_eq_false (by rw [not_lt]; have : (0 : ℝ) < 1 / 10 ^ 6 := by norm_num
                                       linarith)
  lessEq a b h := decide_eq_true (by have : (0 : ℝ) < 1 / 10 ^ 6 := by norm_num
                                     linarith)
  greaterEq a b h := decide_eq_true (by have : (0 : ℝ) < 1 / 10 ^ 6 := by norm_num
                                        linarith)
  notGreaterEq a b h := decide_eq_false (by rw [not_le]; have : (0 : ℝ) < 1 / 10 ^ 6 := by norm_num
                                            linarith)

/-- The box of two points. -/
example : ∃ b : AABB (Fl binary64) 3, (∀ i, IsLeast {x | ∃ p ∈ [![fl64 1, fl64 6, fl64 3], ![fl64 4, fl64 2, fl64 5]], x = p i} (b.min i)) ∧
    makeAABB false [![fl64 1, fl64 6, fl64 3], ![fl64 4, fl64 2, fl64 5]] = .ok b := by
  obtain ⟨b, h1, h2⟩ := C102_make_aabb false [![fl64 1, fl64 6, fl64 3], ![fl64 4, fl64 2, fl64 5]] (by simp)
    (decide_eq_true (by rw [sub_self, abs_zero]; norm_num)) (by
      have key : ∀ (n : ℤ) (h : |n| < 2 ^ 53), |n| ≤ 10 ^ 9 → (HasLimits.lowest : Fl binary64) ≤ fl64 n h ∧ fl64 n h ≤ HasLimits.maxVal := by
        intro n h hn
        have := abs_le.1 hn
        constructor
        · show ((-10 ^ 9 : ℤ) : ℝ) ≤ (n : ℝ)
          exact_mod_cast this.1
        · show (n : ℝ) ≤ ((10 ^ 9 : ℤ) : ℝ)
          exact_mod_cast this.2
      intro p hp i
      simp only [List.mem_cons, List.not_mem_nil, or_false] at hp
      rcases hp with rfl | rfl <;> fin_cases i <;> exact key _ (by norm_num) (by norm_num))
  exact ⟨b, fun i => (h1 i).1, by simpa using h2⟩

/-- The thinnest box far from the origin: its centre cannot be exact, but it lies in the box. -/
example (b : AABB (Fl binary64) 1) (h : b.min 0 = fl64 (2 ^ 52)) (h' : b.max 0 = fl64 (2 ^ 52 + 1)) : b.center 0 ≤ fl64 (2 ^ 52 + 1) := by
  rw [← h']
  refine (C102_center b (fun i => ?_) 0).2
  obtain rfl : i = 0 := Subsingleton.elim _ _
  rw [h, h']
  show ((2 ^ 52 : ℤ) : ℝ) ≤ ((2 ^ 52 + 1 : ℤ) : ℝ)
  norm_num

/-- A diagonal ray through a box. -/
example : ∃ r, intersectRayBox true ⟨![fl64 0, fl64 0, fl64 1], ![fl64 1, fl64 1, fl64 0]⟩ ⟨![fl64 3, fl64 2, fl64 0], ![fl64 6, fl64 7, fl64 2]⟩ = .ok r ∧
    ∃ p, r.enter = some p ∧ |(p 0).1 - 3| ≤ 1 / 10 ^ 10 := by
  have key := C103_accuracy true ![fl64 0, fl64 0, fl64 1] ![fl64 1, fl64 1, fl64 0] ![fl64 3, fl64 2, fl64 0] ![fl64 6, fl64 7, fl64 2]
    (te := 3) (tx := 6) flTol64 (by show 6 ≤ 53; norm_num) tiny64
    (by intro i; fin_cases i <;> (show ((_ : ℤ) : ℝ) ≤ ((_ : ℤ) : ℝ)) <;> norm_num)
    ⟨0, by show ((1 : ℤ) : ℝ) ≠ 0; norm_num⟩
    (by
      have e : ∀ (n : ℤ) (h : |n| < 2 ^ 53), n = 0 ∨ n = 1 → |(fl64 n h).1| ≤ 2 ∧ (isZero (fl64 n h) = true ↔ (fl64 n h).1 = 0) := by
        intro n h hn
        have e1 : (fl64 n h).1 = (n : ℝ) := rfl
        have e2 : isZero (fl64 n h) = decide (|(n : ℝ)| < 1 / 10 ^ 6) := rfl
        rw [e1, e2]
        rcases hn with rfl | rfl <;> norm_num
      intro i; fin_cases i <;> exact e _ (by norm_num) (by norm_num))
    (by norm_num)
    (by
      intro t
      have v : ∀ (n : ℤ) (h : |n| < 2 ^ 53), (fl64 n h).1 = (n : ℝ) := fun _ _ => rfl
      constructor
      · intro h
        have h0 := h 0
        simp [Spec.inInterval, Spec.pointAt, v] at h0
        exact h0
      · rintro ⟨h1, h2⟩ i
        fin_cases i <;> simp [Spec.inInterval, Spec.pointAt, v] <;> constructor <;> linarith)
    (by
      have h1 := tiny64
      have h2 : binary64.unit = (2 : ℝ)⁻¹ ^ 53 := rfl
      have h3 : binary64.unit ≤ 1 / 1000 := by rw [h2]; norm_num
      have h4 : binary64.unit * binary64.unit ≤ 1 / 1000 * (1 / 1000) := mul_le_mul h3 h3 binary64.unit_pos.le (by norm_num)
      rw [abs_of_pos (by norm_num : (0 : ℝ) < 3), abs_of_pos (by norm_num : (0 : ℝ) < 6)]
      linarith)
    (by norm_num)
  obtain ⟨r, h1, -, h3, -⟩ := key
  obtain ⟨p, h4, h5⟩ := h3 (by norm_num)
  refine ⟨r, h1, p, h4, ?_⟩
  have h6 := h5 0
  have v : ∀ (n : ℤ) (h : |n| < 2 ^ 53), (fl64 n h).1 = (n : ℝ) := fun _ _ => rfl
  simp only [Matrix.cons_val_zero, v, Int.cast_zero, Int.cast_one, zero_add, mul_one] at h6
  refine h6.trans ?_
  have h1 := tiny64
  have h2 : binary64.unit = (2 : ℝ)⁻¹ ^ 53 := rfl
  have h3 : binary64.unit ≤ 1 / 10 ^ 12 := by rw [h2]; norm_num
  have h4 : binary64.unit * binary64.unit ≤ 1 / 10 ^ 12 * (1 / 10 ^ 12) := mul_le_mul h3 h3 binary64.unit_pos.le (by norm_num)
  rw [abs_of_pos (by norm_num : (0 : ℝ) < 3)]
  norm_num at h3 h4 ⊢
  linarith
/-- The centre of a box of `double`s. -/
example : |((⟨![fl64 1], ![fl64 4]⟩ : AABB (Fl binary64) 1).center 0).1 - 5 / 2| ≤ 4 * binary64.unit * 4 + 2 * binary64.tiny := by
  have := C102_center_accuracy (⟨![fl64 1], ![fl64 4]⟩ : AABB (Fl binary64) 1) 0 (B := 4)
    (by show |((1 : ℤ) : ℝ)| ≤ 4; norm_num) (by show |((4 : ℤ) : ℝ)| ≤ 4; norm_num) (by show (2 : ℝ)⁻¹ ^ 53 ≤ 1 / 16; norm_num)
  have e : (((⟨![fl64 1], ![fl64 4]⟩ : AABB (Fl binary64) 1).min 0).1 + ((⟨![fl64 1], ![fl64 4]⟩ : AABB (Fl binary64) 1).max 0).1) / 2 = 5 / 2 := by
    show (((1 : ℤ) : ℝ) + ((4 : ℤ) : ℝ)) / 2 = 5 / 2
    norm_num
  rwa [e] at this
end Examples
end Verif
