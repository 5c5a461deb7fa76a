import Verif.Props.FloatAxisDist
import Verif.Props.FloatBox
import Verif.Props.FloatSphere
import Verif.Props.Mesh

set_option linter.unusedSectionVars false

/-
C163: computed intersection points keep the coordinates that a line does not change.
-/
namespace Verif
open Spec

section
variable {F : FloatFormat} {D : ℕ}

/-- A point of a line is computed without error in the coordinates the direction does not change. -/
theorem point_keeps (o d : Vec (Fl F) D) (t : Fl F) {i : Fin D} (hd : (d i).1 = 0) : vadd o (vscale d t) i = o i := by
  apply Fl.ext
  show (o i + d i * t).1 = _
  rw [Fl.val_add, Fl.val_mul, hd, zero_mul, F.rounds.zero, add_zero]
  exact F.rounds.exact (o i).2

theorem seg_dir_zero (s : Segment (Fl F) D) {i : Fin D} (hs : s.source i = s.target i) : (vsub s.target s.source i).1 = 0 :=
  (Fl.sub_sign _ _).2.2 (by rw [hs])

/-- **C163** A line made with a direction that has a zero coordinate stores a zero there; so do rays. -/
theorem C163_made [Tol (Fl F)] (o d : Vec (Fl F) D) (i : Fin D) (hd : (d i).1 = 0) :
    ((Line.make o d).direction i).1 = 0 ∧ ∀ dbg r, Ray.make dbg o d = .ok r → (r.direction i).1 = 0 := by
  have h : (normalize d i).1 = 0 := by
    show (d i / length d).1 = 0
    rw [Fl.val_div, hd, zero_div, F.rounds.zero]
  refine ⟨h, fun dbg r hr => ?_⟩
  unfold Ray.make at hr
  cases hdbg : dbg <;> simp only [hdbg, geoAssert] at hr
  · cases hr; exact h
  · split at hr
    · cases hr
    · cases hr; exact h

/-- **C163** The points computed for a line (with a plane, a line and a sphere) have exactly the coordinates of its origin wherever the direction is
zero: a line in an axis-parallel plane meets everything in points of that plane. -/
theorem C163_line [Tol (Fl F)] (l : Line (Fl F) 3) (i : Fin 3) (hd : (l.direction i).1 = 0) (e : Fl F) (q : Vec (Fl F) 3) :
    (∀ p, intersectPlaneLine p l e = some q → q i = l.origin i) ∧
    (∀ r, intersectLine3 l r e = some q → q i = l.origin i) ∧
    (∀ s, (intersectSphereLine s l e).first = some q ∨ (intersectSphereLine s l e).second = some q → q i = l.origin i) := by
  refine ⟨fun p h => ?_, fun r h => ?_, fun s h => ?_⟩
  · unfold intersectPlaneLine at h
    simp only at h
    split at h
    · cases h
    · cases h; exact point_keeps _ _ _ hd
  · unfold intersectLine3 at h
    simp only at h
    split at h
    · cases h
    · split at h
      · cases h; exact point_keeps _ _ _ hd
      · cases h
  · unfold intersectSphereLine at h
    simp only at h
    split at h
    · rcases h with h | h <;> cases h <;> exact point_keeps _ _ _ hd
    · split at h
      · rcases h with h | h
        · cases h; exact point_keeps _ _ _ hd
        · cases h
      · rcases h with h | h <;> cases h

/-- **C163** ... for a ray (with a plane, a segment, a sphere and a box). -/
theorem C163_ray [Tol (Fl F)] [HasLimits (Fl F)] (r : Ray (Fl F) 3) (i : Fin 3) (hd : (r.direction i).1 = 0) (e : Fl F) (q : Vec (Fl F) 3) :
    (∀ p, intersectPlaneRay p r e = some q → q i = r.origin i) ∧
    (∀ s, intersectSegmentRay s r e = some q → q i = r.origin i) ∧
    (∀ s, (intersectSphereRay s r e).first = some q ∨ (intersectSphereRay s r e).second = some q → q i = r.origin i) ∧
    (∀ dbg b x, intersectRayBox dbg r b = .ok x → x.enter = some q ∨ x.exit = some q → q i = r.origin i) := by
  refine ⟨fun p h => ?_, fun r h => ?_, fun s h => ?_, fun dbg b x hx h => ?_⟩
  · unfold intersectPlaneRay at h
    split at h
    · cases h
    · split at h
      · cases h; exact point_keeps _ _ _ hd
      · cases h
  · unfold intersectSegmentRay at h
    simp only at h
    split at h
    · cases h
    · split at h
      · cases h
      · cases h; exact point_keeps _ _ _ hd
  · unfold intersectSphereRay at h
    simp only at h
    split at h
    · rcases h with h | h <;> simp only at h <;> split at h <;> cases h <;> exact point_keeps _ _ _ hd
    · split at h
      · split at h
        · rcases h with h | h
          · cases h; exact point_keeps _ _ _ hd
          · cases h
        · rcases h with h | h <;> cases h
      · rcases h with h | h <;> cases h
  · have hpt : ∀ t p, ordinateToPoint dbg r t = .ok p → p i = r.origin i := fun t p hp => by
      unfold ordinateToPoint at hp
      obtain ⟨u, -, hp⟩ := bind_ok hp
      cases t with
      | fin t => cases hp; exact point_keeps _ _ _ hd
      | negInf => cases hp
      | posInf => cases hp
    have hmap : ∀ t (y : Option (Vec (Fl F) 3)), (some <$> ordinateToPoint dbg r t) = Except.ok y → y = some q → q i = r.origin i := by
      intro t y hy hyq
      subst hyq
      cases hp : ordinateToPoint dbg r t with
      | error _ => rw [hp] at hy; cases hy
      | ok p => rw [hp] at hy; cases hy; exact hpt t _ hp
    have hpure : ∀ y : Option (Vec (Fl F) 3), (pure none : Res _) = Except.ok y → y = some q → q i = r.origin i := by
      intro y hy hyq
      subst hyq
      cases hy
    unfold intersectRayBox at hx
    simp only at hx
    split at hx
    · cases hx
      rcases h with h | h <;> cases h
    · split at hx <;> obtain ⟨y, hy, hx⟩ := bind_ok hx <;> split at hx <;> obtain ⟨z, hz, hx⟩ := bind_ok hx <;> cases hx <;> rcases h with h | h <;>
        first | exact hmap _ _ hy h | exact hmap _ _ hz h | exact hpure _ hy h | exact hpure _ hz h

/-- **C163** ... for a segment (with a plane, as first of two segments and with a sphere), where its end points have the same coordinate. -/
theorem C163_segment [Tol (Fl F)] (s : Segment (Fl F) 3) (i : Fin 3) (hs : s.source i = s.target i) (e : Fl F) (q : Vec (Fl F) 3) :
    (∀ p, intersectPlaneSegment p s e = some q → q i = s.source i) ∧
    (∀ s', intersectSegment3 s s' e = some q → q i = s.source i) ∧
    (∀ b, (intersectSphereSegment b s e).first = some q ∨ (intersectSphereSegment b s e).second = some q → q i = s.source i) := by
  have hd := seg_dir_zero s hs
  refine ⟨fun p h => ?_, fun r h => ?_, fun s h => ?_⟩
  · unfold intersectPlaneSegment at h
    simp only at h
    split at h
    · cases h
    · split at h
      · cases h; exact point_keeps _ _ _ hd
      · cases h
  · unfold intersectSegment3 at h
    simp only at h
    split at h
    · cases h
    · split at h
      · cases h
      · cases h; exact point_keeps _ _ _ hd
  · unfold intersectSphereSegment at h
    simp only at h
    rcases h with h | h <;> split_ifs at h <;> simp only [Option.some.injEq] at h <;> subst h <;> exact point_keeps _ _ _ hd

/-- **C163** ... and in the plane, for the first of two lines or segments. -/
theorem C163_plane [Tol (Fl F)] (i : Fin 2) (e : Fl F) (q : Vec (Fl F) 2) :
    (∀ l r : Line (Fl F) 2, (l.direction i).1 = 0 → intersectLine2 l r e = some q → q i = l.origin i) ∧
    (∀ dbg (s s' : Segment (Fl F) 2), s.source i = s.target i → intersectSegment2 dbg s s' e = .ok (some q) → q i = s.source i) := by
  refine ⟨fun l r hd h => ?_, fun dbg s s' hs h => ?_⟩
  · unfold intersectLine2 at h
    simp only at h
    split at h
    · cases h
    · cases h; exact point_keeps _ _ _ hd
  · have hd := seg_dir_zero s hs
    unfold intersectSegment2 at h
    simp only at h
    split at h
    · cases h
    · split at h
      · cases h
      · obtain ⟨u, -, h⟩ := bind_ok h
        cases h; exact point_keeps _ _ _ hd
end

section Examples
attribute [local instance] tol64
noncomputable local instance limitsKeep : HasLimits (Fl binary64) := ⟨fl64 (10 ^ 9), fl64 (-10 ^ 9)⟩

theorem rnd_int64 (m : ℤ) (h : |m| < 2 ^ 53) : binary64.rnd (m : ℝ) = m := binary64.rounds.exact (fl64 m h).2

theorem first64_zero : ∀ i : Fin 3, i ≠ 0 → ((p64 1 0 0) i).1 = 0 := by
  intro i hi
  fin_cases i
  · exact absurd rfl hi
  · simp [p64, fl64_val]
  · simp [p64, fl64_val]

/-- A line made along (0, 3, 4) stays in its plane. -/
example : ((Line.make (p64 1 2 3) (p64 0 3 4)).direction 0).1 = 0 := (C163_made _ _ 0 (by simp [p64, fl64_val])).1

theorem dot64_first : (dot (p64 1 0 0) (p64 1 0 0)).1 = 1 := by
  rw [dot_axis _ 0 first64_zero, Fl.val_mul]
  have := rnd_int64 1 (by norm_num)
  simpa [p64, fl64_val] using this

/-- The plane x = 3 and the line through (1, 1, 7) along the first axis: the computed point is (…, 1, 7). -/
example : ∃ q, intersectPlaneLine ⟨p64 3 3 1, p64 1 0 0⟩ ⟨p64 1 1 7, p64 1 0 0⟩ = some q ∧ q 1 = fl64 1 ∧ q 2 = fl64 7 := by
  have h : ∃ q, intersectPlaneLine ⟨p64 3 3 1, p64 1 0 0⟩ ⟨p64 1 1 7, p64 1 0 0⟩ = some q := by
    refine ⟨_, if_neg ?_⟩
    have := dot64_first
    rw [Bool.not_eq_true]
    exact isZero64 _ _ (by rw [this]; norm_num)
  obtain ⟨q, hq⟩ := h
  exact ⟨q, hq, (C163_line ⟨p64 1 1 7, p64 1 0 0⟩ 1 (first64_zero 1 (by decide)) _ q).1 _ hq,
    (C163_line ⟨p64 1 1 7, p64 1 0 0⟩ 2 (first64_zero 2 (by decide)) _ q).1 _ hq⟩

theorem param64 : ∃ t, calcIntersectionParameter (p64 4 3 1) (p64 1 0 0) (p64 1 1 7) (p64 1 0 0) Tol.eps = some t ∧ t.1 = 3 := by
  refine ⟨_, if_neg ?_, ?_⟩
  · rw [Bool.not_eq_true]
    exact isZero64 _ _ (by rw [dot64_first]; norm_num)
  · rw [Fl.val_div, dot64_first, dot_axis_right _ _ 0 first64_zero, Fl.val_mul]
    have h3 := rnd_int64 3 (by norm_num)
    have e : (vsub (p64 4 3 1) (p64 1 1 7) 0).1 = 3 := by
      show ((p64 4 3 1) 0 - (p64 1 1 7) 0).1 = 3
      rw [Fl.val_sub]
      simp only [p64, Matrix.cons_val_zero, fl64_val]
      norm_num at h3 ⊢
      exact h3
    rw [e]
    simp only [p64, Matrix.cons_val_zero, fl64_val]
    norm_num at h3 ⊢
    rw [h3, h3]

/-- The ray from (1, 1, 7) along the first axis and the plane x = 4. -/
example : ∃ q, intersectPlaneRay ⟨p64 4 3 1, p64 1 0 0⟩ ⟨p64 1 1 7, p64 1 0 0⟩ = some q ∧ q 1 = fl64 1 ∧ q 2 = fl64 7 := by
  obtain ⟨t, h1, h2⟩ := param64
  have h : ∃ q, intersectPlaneRay ⟨p64 4 3 1, p64 1 0 0⟩ ⟨p64 1 1 7, p64 1 0 0⟩ = some q := by
    unfold intersectPlaneRay
    simp only
    rw [h1]
    refine ⟨_, if_pos ?_⟩
    show decide ((0 : Fl binary64).1 < t.1 - 1 / 10 ^ 6) = true
    rw [h2, Fl.val_zero]
    norm_num
  obtain ⟨q, hq⟩ := h
  exact ⟨q, hq, (C163_ray ⟨p64 1 1 7, p64 1 0 0⟩ 1 (first64_zero 1 (by decide)) _ q).1 _ hq,
    (C163_ray ⟨p64 1 1 7, p64 1 0 0⟩ 2 (first64_zero 2 (by decide)) _ q).1 _ hq⟩

theorem segment64_hit : ∃ q, intersectPlaneSegment ⟨p64 4 3 1, p64 1 0 0⟩ ⟨p64 1 1 0, p64 4 1 4⟩ = some q := by
  have h3 := rnd_int64 3 (by norm_num)
  have h1' := rnd_int64 1 (by norm_num)
  have e : (dot (vsub (p64 4 1 4) (p64 1 1 0)) (p64 1 0 0)).1 = 3 ∧ (dot (vsub (p64 4 3 1) (p64 1 1 0)) (p64 1 0 0)).1 = 3 := by
    constructor <;> rw [dot_axis_right _ _ 0 first64_zero, Fl.val_mul] <;> simp only [vsub, Fl.val_sub, p64, Matrix.cons_val_zero, fl64_val] <;>
      norm_num at h3 ⊢ <;> rw [h3, h3]
  have hp : ∃ t, calcIntersectionParameter (p64 4 3 1) (p64 1 0 0) (p64 1 1 0) (vsub (p64 4 1 4) (p64 1 1 0)) Tol.eps = some t ∧ t.1 = 1 := by
    refine ⟨_, if_neg ?_, ?_⟩
    · rw [Bool.not_eq_true]
      exact isZero64 _ _ (by rw [e.1]; norm_num)
    · rw [Fl.val_div, e.1, e.2]
      norm_num at h1' ⊢
      exact h1'
  obtain ⟨t, h1, h2⟩ := hp
  unfold intersectPlaneSegment
  simp only
  rw [h1]
  refine ⟨_, if_pos ?_⟩
  rw [Bool.and_eq_true]
  constructor
  · show decide ((0 : Fl binary64).1 < t.1 - 1 / 10 ^ 6) = true
    rw [h2, Fl.val_zero]
    norm_num
  · refine decide_eq_true ?_
    rw [h2, Fl.val_one]
    norm_num

/-- The segment from (1, 1, 0) to (4, 1, 4) and the plane x = 4: the computed point has y = 1. -/
example : ∃ q, intersectPlaneSegment ⟨p64 4 3 1, p64 1 0 0⟩ ⟨p64 1 1 0, p64 4 1 4⟩ = some q ∧ q 1 = fl64 1 := by
  obtain ⟨q, hq⟩ := segment64_hit
  exact ⟨q, hq, (C163_segment ⟨p64 1 1 0, p64 4 1 4⟩ 1 (by simp [p64]) _ q).1 _ hq⟩

/-- The line through (1, 2) along the first axis and the one through (5, 7) along the second: the computed point has y = 2. -/
example : ∃ q, intersectLine2 ⟨![fl64 1, fl64 2], ![fl64 1, fl64 0]⟩ ⟨![fl64 5, fl64 7], ![fl64 0, fl64 1]⟩ = some q ∧ q 1 = fl64 2 := by
  have h1 := rnd_int64 1 (by norm_num)
  have h0 := binary64.rounds.zero
  have h : ∃ q, intersectLine2 ⟨![fl64 1, fl64 2], ![fl64 1, fl64 0]⟩ ⟨![fl64 5, fl64 7], ![fl64 0, fl64 1]⟩ = some q := by
    refine ⟨_, if_neg ?_⟩
    rw [Bool.not_eq_true]
    refine isZero64 _ _ ?_
    rw [Fl.val_stdAbs, Fl.val_sub, Fl.val_mul, Fl.val_mul]
    simp only [Matrix.cons_val_zero, Matrix.cons_val_one, fl64_val]
    norm_num at h1 ⊢
    rw [h1, h0, sub_zero, h1]
    norm_num
  obtain ⟨q, hq⟩ := h
  exact ⟨q, hq, (C163_plane 1 _ q).1 _ _ (by simp [fl64_val]) hq⟩
end Examples
end Verif
