import Verif.Proofs.TolExample
import Verif.Model.AABB
import Verif.Proofs.Tol
import Verif.Proofs.Res
import Verif.Spec.Box
import Mathlib.Tactic.NormNum
import Mathlib.Tactic.FinCases
import Mathlib.Data.Fin.VecNotation
import Mathlib.Data.Fintype.Pi

/-
Properties C08–C15, C71.  `K` is any ordered field (exact arithmetic) unless square roots are needed.
-/
set_option linter.unusedSectionVars false

namespace Verif

section Field
variable {K : Type*} [Field K] [LinearOrder K] [IsStrictOrderedRing K] [Tol K] [LawfulTol K] {D : ℕ}

/-- Points of a box enlarged by `e`. -/
def AABB.Has (b : AABB K D) (e : K) (p : Vec K D) : Prop := Spec.inBox b.min b.max e p

/-- `a` is contained in `b` (bounds comparison). -/
def AABB.Sub (a b : AABB K D) : Prop := ∀ i, b.min i ≤ a.min i ∧ a.max i ≤ b.max i

theorem AABB.Sub.trans {a b c : AABB K D} (h : a.Sub b) (h' : b.Sub c) : a.Sub c :=
  fun i => ⟨(h' i).1.trans (h i).1, (h i).2.trans (h' i).2⟩

theorem AABB.Sub.has {a b : AABB K D} (h : a.Sub b) {e : K} {p : Vec K D} (hp : a.Has e p) : b.Has e p :=
  fun i => ⟨by have := (h i).1; have := (hp i).1; linarith, by have := (h i).2; have := (hp i).2; linarith⟩

/-- **C08** `add(point)`: the point is covered up to eps, nothing is lost, and each bound is the old one or the
coordinate of the point (and moves outwards). -/
theorem C08_add (b : AABB K D) (v : Vec K D) :
    (b.add v).Has eps v ∧ b.Sub (b.add v) ∧
    (∀ e p, b.Has e p → (b.add v).Has e p) ∧
    (∀ i, (b.add v).min i = b.min i ∨ ((b.add v).min i = v i ∧ v i < b.min i)) ∧
    (∀ i, (b.add v).max i = b.max i ∨ ((b.add v).max i = v i ∧ b.max i < v i)) := by
  have he := eps_pos (K := K)
  have hmin : ∀ i, (b.add v).min i ≤ b.min i ∧ (b.add v).min i ≤ v i + eps ∧
      ((b.add v).min i = b.min i ∨ ((b.add v).min i = v i ∧ v i < b.min i)) := by
    intro i
    simp only [AABB.add]
    cases c : isLess (v i) (b.min i)
    · have := of_not_isLess c; simp [this]
    · have := of_isLess c
      refine ⟨by simp; linarith, by simp; linarith, .inr ⟨by simp, by linarith⟩⟩
  have hmax : ∀ i, b.max i ≤ (b.add v).max i ∧ v i - eps ≤ (b.add v).max i ∧
      ((b.add v).max i = b.max i ∨ ((b.add v).max i = v i ∧ b.max i < v i)) := by
    intro i
    simp only [AABB.add, isGreater_eq]
    cases c : isLess (b.max i) (v i)
    · have := of_not_isLess c; simp only [Bool.false_eq_true, if_false]; exact ⟨le_refl _, by linarith, .inl trivial⟩
    · have := of_isLess c
      refine ⟨by simp; linarith, by simp; linarith, .inr ⟨by simp, by linarith⟩⟩
  have hsub : b.Sub (b.add v) := fun i => ⟨(hmin i).1, (hmax i).1⟩
  refine ⟨fun i => ⟨by have := (hmin i).2.1; linarith, by have := (hmax i).2.1; linarith⟩, hsub, fun e p hp => hsub.has hp,
    fun i => (hmin i).2.2, fun i => (hmax i).2.2⟩

/-- **C08** for `add(box)`. -/
theorem C08_addBox (b o : AABB K D) :
    (∀ i, (b.addBox o).min i ≤ o.min i + eps ∧ o.max i - eps ≤ (b.addBox o).max i) ∧ b.Sub (b.addBox o) ∧
    (∀ p, o.Has 0 p → (b.addBox o).Has eps p) ∧
    (∀ i, (b.addBox o).min i = b.min i ∨ ((b.addBox o).min i = o.min i ∧ o.min i < b.min i)) ∧
    (∀ i, (b.addBox o).max i = b.max i ∨ ((b.addBox o).max i = o.max i ∧ b.max i < o.max i)) := by
  have h1 := C08_add b o.min
  have h2 := C08_add b o.max
  have e1 : ∀ i, (b.addBox o).min i = (b.add o.min).min i := fun i => rfl
  have e2 : ∀ i, (b.addBox o).max i = (b.add o.max).max i := fun i => rfl
  have hb : ∀ i, (b.addBox o).min i ≤ o.min i + eps ∧ o.max i - eps ≤ (b.addBox o).max i := by
    intro i
    rw [e1, e2]
    exact ⟨by have := (h1.1 i).1; linarith, by have := (h2.1 i).2; linarith⟩
  refine ⟨hb, ?_, ?_, ?_, ?_⟩
  · intro i; rw [e1, e2]; exact ⟨(h1.2.1 i).1, (h2.2.1 i).2⟩
  · intro p hp i
    have := hb i
    have hpi := hp i
    simp only [Spec.inInterval, sub_zero, add_zero] at hpi
    exact ⟨by linarith [hpi.1], by linarith [hpi.2]⟩
  · intro i; rw [e1]; exact h1.2.2.2.1 i
  · intro i; rw [e2]; exact h2.2.2.2.2 i

/-- One `add` call of a history. -/
inductive AddOp (K : Type*) (D : ℕ)
  | point (v : Vec K D)
  | box (b : AABB K D)

/-- Executes one call. -/
def AddOp.run (b : AABB K D) : AddOp K D → AABB K D
  | .point v => b.add v
  | .box o => b.addBox o

/-- Smallest and largest coordinate of what is added. -/
def AddOp.lo : AddOp K D → Vec K D
  | .point v => v
  | .box o => o.min
/-- see `lo` -/
def AddOp.hi : AddOp K D → Vec K D
  | .point v => v
  | .box o => o.max

theorem AddOp.run_spec (b : AABB K D) (op : AddOp K D) :
    b.Sub (op.run b) ∧ (∀ i, (op.run b).min i ≤ op.lo i + eps ∧ op.hi i - eps ≤ (op.run b).max i) ∧
    (∀ i, (op.run b).min i = b.min i ∨ (op.run b).min i = op.lo i) ∧
    (∀ i, (op.run b).max i = b.max i ∨ (op.run b).max i = op.hi i) := by
  cases op with
  | point v =>
    obtain ⟨h1, h2, _, h4, h5⟩ := C08_add b v
    exact ⟨h2, fun i => ⟨by have := (h1 i).1; simp only [AddOp.run, AddOp.lo]; linarith,
      by have := (h1 i).2; simp only [AddOp.run, AddOp.hi]; linarith⟩,
      fun i => (h4 i).imp id And.left, fun i => (h5 i).imp id And.left⟩
  | box o =>
    obtain ⟨h1, h2, _, h4, h5⟩ := C08_addBox b o
    exact ⟨h2, h1, fun i => (h4 i).imp id And.left, fun i => (h5 i).imp id And.left⟩

/-- **C09** after any history of `add` calls: the initial box is contained in the final one, everything added lies in
it up to eps, and every bound of the final box is a bound of the initial box or a coordinate of something added. -/
theorem C09_history (b : AABB K D) (ops : List (AddOp K D)) :
    b.Sub (ops.foldl AddOp.run b) ∧
    (∀ op ∈ ops, ∀ i, (ops.foldl AddOp.run b).min i ≤ op.lo i + eps ∧ op.hi i - eps ≤ (ops.foldl AddOp.run b).max i) ∧
    (∀ i, (ops.foldl AddOp.run b).min i = b.min i ∨ ∃ op ∈ ops, (ops.foldl AddOp.run b).min i = op.lo i) ∧
    (∀ i, (ops.foldl AddOp.run b).max i = b.max i ∨ ∃ op ∈ ops, (ops.foldl AddOp.run b).max i = op.hi i) := by
  induction ops generalizing b with
  | nil => exact ⟨fun i => ⟨le_refl _, le_refl _⟩, by simp, fun i => .inl rfl, fun i => .inl rfl⟩
  | cons op ops ih =>
    obtain ⟨s1, s2, s3, s4⟩ := AddOp.run_spec b op
    obtain ⟨i1, i2, i3, i4⟩ := ih (op.run b)
    simp only [List.foldl_cons]
    refine ⟨s1.trans i1, ?_, ?_, ?_⟩
    · intro op' hop i
      rcases List.mem_cons.1 hop with rfl | hop
      · exact ⟨((i1 i).1).trans (s2 i).1, (s2 i).2.trans (i1 i).2⟩
      · exact i2 op' hop i
    · intro i
      rcases i3 i with h | ⟨o, ho, h⟩
      · rw [h]
        rcases s3 i with h | h
        · exact .inl h
        · exact .inr ⟨op, by simp, h⟩
      · exact .inr ⟨o, by simp [ho], h⟩
    · intro i
      rcases i4 i with h | ⟨o, ho, h⟩
      · rw [h]
        rcases s4 i with h | h
        · exact .inl h
        · exact .inr ⟨op, by simp, h⟩
      · exact .inr ⟨o, by simp [ho], h⟩

/-- **C09** in terms of points: every added point, and every point of every added box, lies in the final box up to
eps; every point of the initial box still does exactly. -/
theorem C09_contains (b : AABB K D) (ops : List (AddOp K D)) :
    (∀ v, AddOp.point v ∈ ops → (ops.foldl AddOp.run b).Has eps v) ∧
    (∀ o p, AddOp.box o ∈ ops → o.Has 0 p → (ops.foldl AddOp.run b).Has eps p) ∧
    (∀ p, b.Has 0 p → (ops.foldl AddOp.run b).Has 0 p) := by
  obtain ⟨h1, h2, _, _⟩ := C09_history b ops
  refine ⟨?_, ?_, fun p hp => h1.has hp⟩
  · intro v hv i
    have := h2 _ hv i
    exact ⟨by simp only [AddOp.lo] at this; linarith [this.1], by simp only [AddOp.hi] at this; linarith [this.2]⟩
  · intro o p ho hp i
    have := h2 _ ho i
    have hpi := hp i
    simp only [AddOp.lo, AddOp.hi] at this
    simp only [Spec.inInterval, sub_zero, add_zero] at hpi
    exact ⟨by linarith [this.1, hpi.1], by linarith [this.2, hpi.2]⟩

/-- **C10** two orders of the same calls give bounds that differ by at most eps. -/
theorem C10_order (b : AABB K D) (ops ops' : List (AddOp K D)) (hp : ops.Perm ops') (i : Fin D) :
    |(ops.foldl AddOp.run b).min i - (ops'.foldl AddOp.run b).min i| ≤ eps ∧
    |(ops.foldl AddOp.run b).max i - (ops'.foldl AddOp.run b).max i| ≤ eps := by
  have he := eps_pos (K := K)
  have key : ∀ o1 o2 : List (AddOp K D), o1.Perm o2 →
      (o2.foldl AddOp.run b).min i ≤ (o1.foldl AddOp.run b).min i + eps ∧
      (o1.foldl AddOp.run b).max i - eps ≤ (o2.foldl AddOp.run b).max i := by
    intro o1 o2 h
    obtain ⟨_, _, a3, a4⟩ := C09_history b o1
    obtain ⟨b1, b2, _, _⟩ := C09_history b o2
    constructor
    · rcases a3 i with h3 | ⟨o, ho, h3⟩
      · rw [h3]; linarith [(b1 i).1]
      · rw [h3]; exact (b2 o (h.mem_iff.1 ho) i).1
    · rcases a4 i with h3 | ⟨o, ho, h3⟩
      · rw [h3]; linarith [(b1 i).2]
      · rw [h3]; exact (b2 o (h.mem_iff.1 ho) i).2
  have k1 := key _ _ hp
  have k2 := key _ _ hp.symm
  constructor <;> rw [abs_le] <;> constructor <;> linarith [k1.1, k1.2, k2.1, k2.2]

/-- **C10** with exact comparisons (`isLess` is `<`) the order is irrelevant. -/
theorem C10_order_exact {K : Type*} [LinearOrder K] [Tol K] (hless : ∀ a b : K, isLess a b = decide (a < b))
    (hgt : ∀ a b : K, isGreater a b = decide (b < a)) {D : ℕ} (b : AABB K D) (l l' : List (Vec K D)) (hp : l.Perm l') :
    l.foldl AABB.add b = l'.foldl AABB.add b := by
  have hadd : ∀ (b : AABB K D) v, b.add v = ⟨fun i => min (v i) (b.min i), fun i => max (v i) (b.max i)⟩ := by
    intro b v
    simp only [AABB.add, hless, hgt, decide_eq_true_eq]
    congr 1 <;> funext i <;> split
    · rename_i h; exact (min_eq_left h.le).symm
    · rename_i h; exact (min_eq_right (not_lt.1 h)).symm
    · rename_i h; exact (max_eq_left h.le).symm
    · rename_i h; exact (max_eq_right (not_lt.1 h)).symm
  refine hp.foldl_eq' ?_ b
  intro x _ y _ z
  simp only [hadd]
  congr 1 <;> funext i
  · exact min_left_comm _ _ _
  · exact max_left_comm _ _ _

/-- **C12** is false: growing a default constructed box does not give the bounding box of the added points.
Adding the single point 5 leaves the lower bound at 1, a value that was never added. -/
theorem C12_default_counterexample :
    ∃ (pts : List (Vec K 1)) (i : Fin 1), pts ≠ [] ∧
      ∀ p ∈ pts, (pts.foldl AABB.add (AABB.default : AABB K 1)).min i ≠ p i := by
  refine ⟨[fun _ => 5], 0, by simp, ?_⟩
  intro p hp
  simp only [List.mem_singleton] at hp
  subst hp
  simp only [List.foldl_cons, List.foldl_nil, AABB.add, AABB.default]
  rw [not_isLess_of_le (by norm_num)]
  norm_num

theorem foldl_add_eq_run (b : AABB K D) (pts : List (Vec K D)) :
    pts.foldl AABB.add b = (pts.map AddOp.point).foldl AddOp.run b := by
  induction pts generalizing b with
  | nil => rfl
  | cons v l ih => simp only [List.foldl_cons, List.map_cons]; exact ih _

/-- **C12** (partial: only if the points straddle the default bounds, i.e. in each coordinate some point is clearly below
1 and some point clearly above -1).  Then the grown default box covers all points up to eps and each of its bounds
is a coordinate of an added point. -/
theorem C12_default_partial (pts : List (Vec K D))
    (hlo : ∀ i, ∃ p ∈ pts, p i + eps < 1) (hhi : ∀ i, ∃ p ∈ pts, -1 + eps < p i) :
    (∀ p ∈ pts, (pts.foldl AABB.add (AABB.default : AABB K D)).Has eps p) ∧
    (∀ i, ∃ p ∈ pts, (pts.foldl AABB.add (AABB.default : AABB K D)).min i = p i) ∧
    (∀ i, ∃ p ∈ pts, (pts.foldl AABB.add (AABB.default : AABB K D)).max i = p i) := by
  rw [foldl_add_eq_run]
  obtain ⟨_, h2, h3, h4⟩ := C09_history (AABB.default : AABB K D) (pts.map AddOp.point)
  refine ⟨fun p hp => (C09_contains _ _).1 p (List.mem_map_of_mem hp), ?_, ?_⟩
  · intro i
    rcases h3 i with h | ⟨op, hop, h⟩
    · obtain ⟨p, hp, hlt⟩ := hlo i
      have := (h2 _ (List.mem_map_of_mem hp) i).1
      rw [h] at this
      simp only [AddOp.lo, AABB.default] at this
      linarith
    · obtain ⟨p, hp, rfl⟩ := List.mem_map.1 hop
      exact ⟨p, hp, h⟩
  · intro i
    rcases h4 i with h | ⟨op, hop, h⟩
    · obtain ⟨p, hp, hlt⟩ := hhi i
      have := (h2 _ (List.mem_map_of_mem hp) i).2
      rw [h] at this
      simp only [AddOp.hi, AABB.default] at this
      linarith
    · obtain ⟨p, hp, rfl⟩ := List.mem_map.1 hop
      exact ⟨p, hp, h⟩

/-- A default constructed box is invalid and empty (any positive dimension; eps below 2). -/
theorem C12_default_invalid (hD : 0 < D) (h2 : (eps : K) < 2) :
    (AABB.default : AABB K D).isValid = false ∧ (AABB.default : AABB K D).isEmpty = true := by
  constructor
  · unfold AABB.isValid
    rw [forallFin_false_iff]
    exact ⟨⟨0, hD⟩, by rw [isGreaterEq_eq, not_isLess_of_le (by simp only [AABB.default]; linarith [one_pos (α := K)])]; rfl⟩
  · unfold AABB.isEmpty
    rw [Bool.not_eq_true', forallFin_false_iff]
    exact ⟨⟨0, hD⟩, by rw [isGreater_eq, isLess_true (by simp only [AABB.default]; linarith)]; rfl⟩

/-- **C13** `is_valid` means min < max by (at least) eps in every coordinate; larger by more than eps suffices. -/
theorem C13_valid_partial (b : AABB K D) :
    (b.isValid = true → ∀ i, b.min i + eps ≤ b.max i) ∧ ((∀ i, b.min i + eps < b.max i) → b.isValid = true) := by
  unfold AABB.isValid
  rw [forallFin_iff]
  simp only [isGreaterEq_eq, Bool.not_not]
  exact ⟨fun h i => of_isLess (h i), fun h i => isLess_true (h i)⟩

/-- **C13** the documented meaning "min <= max" is not what `is_valid` decides: a box with min = max is reported
invalid. -/
theorem C13_doc_false : ∃ b : AABB K 1, (∀ i, b.min i ≤ b.max i) ∧ b.isValid = false := by
  refine ⟨⟨fun _ => 0, fun _ => 0⟩, fun _ => le_refl _, ?_⟩
  unfold AABB.isValid
  rw [forallFin_false_iff]
  exact ⟨0, by rw [isGreaterEq_eq, not_isLess_of_le (le_refl _)]; rfl⟩

/-- **C13** `is_empty`: a box that contains a point is never reported empty; a box not reported empty contains a point
when enlarged by eps. -/
theorem C13_empty (b : AABB K D) :
    ((∃ p, b.Has 0 p) → b.isEmpty = false) ∧ (b.isEmpty = false → ∃ p, b.Has eps p) ∧
    (b.isEmpty = true → ∃ i, b.max i + eps ≤ b.min i) ∧ (b.isValid = true → b.isEmpty = false) := by
  have he := eps_pos (K := K)
  have hf : b.isEmpty = false ↔ ∀ i, isLess (b.max i) (b.min i) = false := by
    unfold AABB.isEmpty
    rw [Bool.not_eq_false', forallFin_iff]; simp [isGreater_eq]
  refine ⟨?_, ?_, ?_, ?_⟩
  · rintro ⟨p, hp⟩
    rw [hf]; intro i
    have := hp i
    simp only [Spec.inInterval, sub_zero, add_zero] at this
    exact not_isLess_of_le (this.1.trans this.2)
  · intro h
    rw [hf] at h
    refine ⟨b.min, fun i => ⟨by linarith, ?_⟩⟩
    exact of_not_isLess (h i)
  · intro h
    by_contra hc
    rw [← Bool.not_eq_false, hf] at h
    apply h; intro i
    apply not_isLess
    by_contra hcc
    exact hc ⟨i, not_lt.1 hcc⟩
  · intro h
    rw [hf]; intro i
    have := (C13_valid_partial b).1 h i
    exact not_isLess_of_le (by linarith)

/-- Overlap length of two boxes along axis `i`. -/
def Spec.axisOverlap (l r : AABB K D) (i : Fin D) : K := min (l.max i) (r.max i) - max (l.min i) (r.min i)

theorem aabbIsIntersecting_iff (l r : AABB K D) : aabbIsIntersecting l r = true ↔
    ∀ i, isLess (r.min i) (l.max i) = true ∧ isLess (l.min i) (r.max i) = true := by
  unfold aabbIsIntersecting
  rw [forallFin_iff]
  simp [isLessEq_eq, isGreaterEq_eq]

/-- **C14** the overlap test is symmetric. -/
theorem C14_symmetric (l r : AABB K D) : aabbIsIntersecting l r = aabbIsIntersecting r l := by
  rw [Bool.eq_iff_iff, aabbIsIntersecting_iff, aabbIsIntersecting_iff]
  exact forall_congr' fun i => And.comm

/-- **C14** for valid boxes the test is true when they overlap by more than eps along every axis, and only if they
overlap by at least eps along every axis. -/
theorem C14_exact (l r : AABB K D) (hl : l.isValid = true) (hr : r.isValid = true) :
    ((∀ i, eps < Spec.axisOverlap l r i) → aabbIsIntersecting l r = true) ∧
    (aabbIsIntersecting l r = true → ∀ i, eps ≤ Spec.axisOverlap l r i) := by
  rw [aabbIsIntersecting_iff]
  constructor
  · intro h i
    have h1 : max (l.min i) (r.min i) + eps < min (l.max i) (r.max i) := by have := h i; unfold Spec.axisOverlap at this; linarith
    rw [lt_min_iff, max_add, max_lt_iff, max_lt_iff] at h1
    exact ⟨isLess_true h1.1.2, isLess_true h1.2.1⟩
  · intro h i
    have vl := (C13_valid_partial l).1 hl i
    have vr := (C13_valid_partial r).1 hr i
    have a := of_isLess (h i).1
    have b := of_isLess (h i).2
    unfold Spec.axisOverlap
    rw [le_sub_iff_add_le, add_comm, le_min_iff, max_add, max_le_iff, max_le_iff]
    exact ⟨⟨vl, a⟩, b, vr⟩

theorem aabbIntersect_eq (dbg : Bool) (l r : AABB K D) (hl : l.isValid = true) (hr : r.isValid = true) :
    aabbIntersect dbg l r = if aabbIsIntersecting l r then
      .ok ⟨fun i => max (l.min i) (r.min i), fun i => min (l.max i) (r.max i)⟩ else .ok AABB.default := by
  unfold aabbIntersect
  have e : forallFin D (fun i => !(isLessEq (l.max i) (r.min i) || isGreaterEq (l.min i) (r.max i))) = aabbIsIntersecting l r := rfl
  rw [e]
  split
  · rename_i h
    simp only [AABB.mk?, stdMax_eq, stdMin_eq]
    have hv : (AABB.mk (fun i => max (l.min i) (r.min i)) (fun i => min (l.max i) (r.max i))).isValid = true := by
      unfold AABB.isValid
      rw [forallFin_iff]
      intro i
      rw [isGreaterEq_eq, Bool.not_not]
      have hi := (aabbIsIntersecting_iff l r).1 h i
      have vl : isLess (l.min i) (l.max i) = true := by
        have := (forallFin_iff _).1 hl i; rwa [isGreaterEq_eq, Bool.not_not] at this
      have vr : isLess (r.min i) (r.max i) = true := by
        have := (forallFin_iff _).1 hr i; rwa [isGreaterEq_eq, Bool.not_not] at this
      rcases max_choice (l.min i) (r.min i) with h1 | h1 <;> rcases min_choice (l.max i) (r.max i) with h2 | h2 <;>
        simp only [h1, h2]
      · exact vl
      · exact hi.2
      · exact hi.1
      · exact vr
    rw [hv]
    cases dbg <;> rfl
  · rfl

/-- **C15** `intersect` of two valid boxes never trips its assertion; it returns a valid box exactly when
`is_intersecting`, and then the result is exactly the set of common points; swapping the arguments gives the same. -/
theorem C15_intersect (dbg : Bool) (l r : AABB K D) (hD : 0 < D) (hl : l.isValid = true) (hr : r.isValid = true) :
    ∃ b, aabbIntersect dbg l r = .ok b ∧ (b.isValid = true ↔ aabbIsIntersecting l r = true) ∧
      (aabbIsIntersecting l r = true → ∀ p, b.Has 0 p ↔ (l.Has 0 p ∧ r.Has 0 p)) ∧
      aabbIntersect dbg r l = .ok b := by
  have he := eps_pos (K := K)
  rw [aabbIntersect_eq dbg l r hl hr, aabbIntersect_eq dbg r l hr hl, C14_symmetric r l]
  by_cases h : aabbIsIntersecting l r = true
  · simp only [h, if_true]
    refine ⟨_, rfl, ?_, ?_, ?_⟩
    · simp only [iff_true]
      unfold AABB.isValid
      rw [forallFin_iff]
      intro i
      rw [isGreaterEq_eq, Bool.not_not]
      have hi := (aabbIsIntersecting_iff l r).1 h i
      have vl : isLess (l.min i) (l.max i) = true := by
        have := (forallFin_iff _).1 hl i; rwa [isGreaterEq_eq, Bool.not_not] at this
      have vr : isLess (r.min i) (r.max i) = true := by
        have := (forallFin_iff _).1 hr i; rwa [isGreaterEq_eq, Bool.not_not] at this
      rcases max_choice (l.min i) (r.min i) with h1 | h1 <;> rcases min_choice (l.max i) (r.max i) with h2 | h2 <;>
        simp only [h1, h2]
      · exact vl
      · exact hi.2
      · exact hi.1
      · exact vr
    · intro _ p
      simp only [AABB.Has, Spec.inBox, Spec.inInterval, sub_zero, add_zero, max_le_iff, le_min_iff]
      exact ⟨fun h => ⟨fun i => ⟨(h i).1.1, (h i).2.1⟩, fun i => ⟨(h i).1.2, (h i).2.2⟩⟩,
        fun h i => ⟨⟨(h.1 i).1, (h.2 i).1⟩, (h.1 i).2, (h.2 i).2⟩⟩
    · congr 2 <;> funext i
      · exact max_comm _ _
      · exact min_comm _ _
  · simp only [h, Bool.false_eq_true, if_false]
    refine ⟨_, rfl, ?_, ?_, rfl⟩
    · simp only [iff_false, Bool.not_eq_true]
      unfold AABB.isValid
      rw [forallFin_false_iff]
      exact ⟨⟨0, hD⟩, by rw [isGreaterEq_eq, not_isLess_of_le (by simp only [AABB.default]; linarith [one_pos (α := K)])]; rfl⟩
    · intro h; cases h
end Field

/-! ### Real coordinates: extreme points and `make_aabb` -/
section Real

theorem dot_eq_sum {D : ℕ} {R : Type*} [CommRing R] (u v : Vec R D) : dot u v = ∑ i, u i * v i :=
  foldl_add_eq_sum (fun i => u i * v i)

theorem extremeLoop_spec {T : Type*} [LinearOrder T] [Zero T] [Add T] [Mul T] {D : ℕ} (dir : Vec T D) (acc : MinMax T) (pts : List (Vec T D)) :
    ((extremeLoop dir acc pts).min ≤ acc.min ∧ acc.max ≤ (extremeLoop dir acc pts).max) ∧
    (∀ p ∈ pts, (extremeLoop dir acc pts).min ≤ dot p dir ∧ dot p dir ≤ (extremeLoop dir acc pts).max) ∧
    ((extremeLoop dir acc pts).min = acc.min ∨ ∃ p ∈ pts, (extremeLoop dir acc pts).min = dot p dir) ∧
    ((extremeLoop dir acc pts).max = acc.max ∨ ∃ p ∈ pts, (extremeLoop dir acc pts).max = dot p dir) := by
  induction pts generalizing acc with
  | nil => simp [extremeLoop]
  | cons v rest ih =>
    simp only [extremeLoop]
    obtain ⟨⟨i1, i2⟩, i3, i4, i5⟩ := ih ⟨if dot v dir < acc.min then dot v dir else acc.min,
      if acc.max < dot v dir then dot v dir else acc.max⟩
    simp only at i1 i2 i4 i5
    have m1 : (if dot v dir < acc.min then dot v dir else acc.min) ≤ acc.min ∧
        (if dot v dir < acc.min then dot v dir else acc.min) ≤ dot v dir := by
      split
      · rename_i h; exact ⟨h.le, le_refl _⟩
      · rename_i h; exact ⟨le_refl _, not_lt.1 h⟩
    have m2 : acc.max ≤ (if acc.max < dot v dir then dot v dir else acc.max) ∧
        dot v dir ≤ (if acc.max < dot v dir then dot v dir else acc.max) := by
      split
      · rename_i h; exact ⟨h.le, le_refl _⟩
      · rename_i h; exact ⟨le_refl _, not_lt.1 h⟩
    refine ⟨⟨i1.trans m1.1, m2.1.trans i2⟩, ?_, ?_, ?_⟩
    · intro p hp
      rcases List.mem_cons.1 hp with rfl | hp
      · exact ⟨i1.trans m1.2, m2.2.trans i2⟩
      · exact i3 p hp
    · rcases i4 with h | ⟨p, hp, h⟩
      · rw [h]
        split
        · exact .inr ⟨v, by simp, rfl⟩
        · exact .inl rfl
      · exact .inr ⟨p, by simp [hp], h⟩
    · rcases i5 with h | ⟨p, hp, h⟩
      · rw [h]
        split
        · exact .inr ⟨v, by simp, rfl⟩
        · exact .inl rfl
      · exact .inr ⟨p, by simp [hp], h⟩

variable [HasLimits ℝ] [Tol ℝ] [LawfulTol ℝ]

theorem extremeLoop_isLeast {D : ℕ} (dir : Vec ℝ D) (pts : List (Vec ℝ D)) (hne : pts ≠ [])
    (hlim : ∀ p ∈ pts, HasLimits.lowest ≤ ∑ i, p i * dir i ∧ ∑ i, p i * dir i ≤ HasLimits.maxVal) :
    IsLeast {x | ∃ p ∈ pts, x = ∑ i, p i * dir i} (extremeLoop dir ⟨HasLimits.maxVal, HasLimits.lowest⟩ pts).min ∧
    IsGreatest {x | ∃ p ∈ pts, x = ∑ i, p i * dir i} (extremeLoop dir ⟨HasLimits.maxVal, HasLimits.lowest⟩ pts).max := by
  obtain ⟨⟨_, _⟩, h3, h4, h5⟩ := extremeLoop_spec dir ⟨HasLimits.maxVal, HasLimits.lowest⟩ pts
  simp only [dot_eq_sum] at h3 h4 h5
  obtain ⟨q, hq⟩ := List.exists_mem_of_ne_nil pts hne
  refine ⟨⟨?_, ?_⟩, ⟨?_, ?_⟩⟩
  · rcases h4 with h | ⟨p, hp, h⟩
    · exact ⟨q, hq, le_antisymm (h3 q hq).1 (by rw [h]; exact (hlim q hq).2)⟩
    · exact ⟨p, hp, h⟩
  · rintro x ⟨p, hp, rfl⟩; exact (h3 p hp).1
  · rcases h5 with h | ⟨p, hp, h⟩
    · exact ⟨q, hq, le_antisymm (by rw [h]; exact (hlim q hq).1) (h3 q hq).2⟩
    · exact ⟨p, hp, h⟩
  · rintro x ⟨p, hp, rfl⟩; exact (h3 p hp).2

/-- **C71** for a non-empty list of (representable) points and a unit direction the result is the smallest and the
largest projection; no assertion fires.  An empty list trips the assertion in debug builds. -/
theorem C71_extreme {D : ℕ} (dbg : Bool) (dir : Vec ℝ D) (hunit : ∑ i, dir i * dir i = 1) (pts : List (Vec ℝ D))
    (hlim : ∀ p ∈ pts, HasLimits.lowest ≤ ∑ i, p i * dir i ∧ ∑ i, p i * dir i ≤ HasLimits.maxVal) :
    (pts ≠ [] → ∃ m, extremePointsAlongDirection dbg dir pts = .ok m ∧
      IsLeast {x | ∃ p ∈ pts, x = ∑ i, p i * dir i} m.min ∧ IsGreatest {x | ∃ p ∈ pts, x = ∑ i, p i * dir i} m.max) ∧
    (pts = [] → extremePointsAlongDirection true dir pts = .error .assertFailed) := by
  constructor
  · intro hne
    have hlen : isEq (length dir) (1 : ℝ) = true := by
      have : length dir = (1 : ℝ) := by unfold length; rw [sqrt_real, dot_eq_sum, hunit, Real.sqrt_one]
      rw [this, isEq_eq, not_isLess_of_le (le_refl _)]; rfl
    have hemp : (!pts.isEmpty) = true := by cases pts with
      | nil => exact absurd rfl hne
      | cons => rfl
    refine ⟨_, ?_, extremeLoop_isLeast dir pts hne hlim⟩
    simp only [extremePointsAlongDirection, hlen, hemp]
    cases dbg <;> rfl
  · rintro rfl; rfl

theorem sum_axis {D : ℕ} (p : Vec ℝ D) (i : Fin D) : ∑ j, p j * (if j = i then (1:ℝ) else 0) = p i := by
  simp [Finset.sum_ite_eq']

/-- **C11** `make_aabb` of a non-empty list of (representable) points: the corners are the coordinatewise minima and
maxima (hence independent of the order of the points).  In debug builds the constructor assertion fires exactly when
that box is not valid (extent not larger than eps in some coordinate); release builds return it anyway. -/
theorem C11_make_aabb (dbg : Bool) (pts : List (Vec ℝ 3)) (hne : pts ≠ [])
    (hlim : ∀ p ∈ pts, ∀ i, HasLimits.lowest ≤ p i ∧ p i ≤ HasLimits.maxVal) :
    ∃ b : AABB ℝ 3, (∀ i, IsLeast {x | ∃ p ∈ pts, x = p i} (b.min i) ∧ IsGreatest {x | ∃ p ∈ pts, x = p i} (b.max i)) ∧
      makeAABB dbg pts = (if dbg && !b.isValid then .error .assertFailed else .ok b) := by
  have hax : ∀ i : Fin 3, ∃ m, extremePointsAlongDirection dbg (fun j => if j = i then (1:ℝ) else 0) pts = .ok m ∧
      IsLeast {x | ∃ p ∈ pts, x = p i} m.min ∧ IsGreatest {x | ∃ p ∈ pts, x = p i} m.max := by
    intro i
    obtain ⟨m, h1, h2, h3⟩ := (C71_extreme dbg (fun j => if j = i then (1:ℝ) else 0)
      (by simp) pts
      (fun p hp => by rw [sum_axis]; exact hlim p hp i)).1 hne
    simp only [sum_axis] at h2 h3
    exact ⟨m, h1, h2, h3⟩
  obtain ⟨m0, a0, b0, c0⟩ := hax 0
  obtain ⟨m1, a1, b1, c1⟩ := hax 1
  obtain ⟨m2, a2, b2, c2⟩ := hax 2
  refine ⟨⟨fun i => if i = 0 then m0.min else if i = 1 then m1.min else m2.min,
    fun i => if i = 0 then m0.max else if i = 1 then m1.max else m2.max⟩, ?_, ?_⟩
  · intro i
    fin_cases i
    · exact ⟨b0, c0⟩
    · exact ⟨b1, c1⟩
    · exact ⟨b2, c2⟩
  · have hemp : (!pts.isEmpty) = true := by cases pts with
      | nil => exact absurd rfl hne
      | cons => rfl
    simp only [makeAABB, a0, a1, a2, hemp, AABB.mk?, ok_bind, geoAssert_true, geoAssert_bind]
    rfl

/-- **C11**, empty input: debug builds trap. -/
theorem C11_empty : makeAABB true ([] : List (Vec ℝ 3)) = .error .assertFailed := rfl
end Real

/-! ### Concrete cases -/
section Examples
attribute [local instance] ratTol ratTol_lawful

/-- two overlapping unit boxes -/
def exBoxA : AABB ℚ 2 := ⟨![0, 0], ![1, 1]⟩
def exBoxB : AABB ℚ 2 := ⟨![1/2, -1], ![3, 1/2]⟩

example : exBoxA.isValid = true ∧ exBoxB.isValid = true ∧ aabbIsIntersecting exBoxA exBoxB = true := by decide +kernel
example : (exBoxA.add ![2, 1/2]).max = ![2, 1] ∧ (exBoxA.add ![2, 1/2]).min = ![0, 0] := by decide +kernel
example : aabbIsIntersecting exBoxA ⟨![1, 0], ![2, 1]⟩ = false := by decide +kernel
example : ([![-3, -3], ![4, 4]].foldl AABB.add (AABB.default : AABB ℚ 2)).max = ![4, 4] := by decide +kernel
example : [AddOp.point (![5, 5] : Vec ℚ 2), AddOp.box exBoxB].Perm [AddOp.box exBoxB, AddOp.point ![5, 5]] :=
  List.Perm.swap _ _ _
/-- The hypotheses of `C12_default_partial` can be met. -/
example : (∀ i : Fin 2, ∃ p ∈ [(![-3, -3] : Vec ℚ 2), ![4, 4]], p i + eps < 1) ∧
    (∀ i : Fin 2, ∃ p ∈ [(![-3, -3] : Vec ℚ 2), ![4, 4]], -1 + eps < p i) := by
  constructor <;> intro i
  · exact ⟨![-3, -3], by simp, by fin_cases i <;> norm_num [eps, Tol.eps]⟩
  · exact ⟨![4, 4], by simp, by fin_cases i <;> norm_num [eps, Tol.eps]⟩
/-- The hypotheses of `C71_extreme`/`C11_make_aabb` can be met. -/
example : letI : HasLimits ℝ := ⟨1000, -1000⟩
    (∀ p ∈ [(![1, 2, 3] : Vec ℝ 3), ![4, 5, -6]], ∀ i, HasLimits.lowest ≤ p i ∧ p i ≤ HasLimits.maxVal) := by
  intro p hp i
  simp only [List.mem_cons, List.not_mem_nil, or_false] at hp
  rcases hp with rfl | rfl <;> fin_cases i <;> simp [HasLimits.lowest, HasLimits.maxVal] <;> norm_num
/-! The theorems applied. -/
example : (exBoxA.add ![2, 1 / 2]).Has eps ![2, 1 / 2] ∧ exBoxA.Sub (exBoxA.add ![2, 1 / 2]) :=
  ⟨(C08_add exBoxA ![2, 1 / 2]).1, (C08_add exBoxA ![2, 1 / 2]).2.1⟩
/-- Adding `exBoxB` covers its point (2, 0). -/
example : (exBoxA.addBox exBoxB).Has eps ![2, 0] :=
  (C08_addBox exBoxA exBoxB).2.2.1 _ (by intro i; fin_cases i <;> norm_num [exBoxB, Spec.inInterval])
/-- Add a point and a box: everything is covered, and no bound is invented. -/
example : ([AddOp.point (![5, 5] : Vec ℚ 2), AddOp.box exBoxB].foldl AddOp.run exBoxA).Has eps ![5, 5] ∧
    ([AddOp.point (![5, 5] : Vec ℚ 2), AddOp.box exBoxB].foldl AddOp.run exBoxA).Has eps ![2, 0] :=
  ⟨(C09_contains exBoxA _).1 _ (by simp),
    (C09_contains exBoxA _).2.1 exBoxB _ (by simp) (by intro i; fin_cases i <;> norm_num [exBoxB, Spec.inInterval])⟩
example : ∃ op ∈ [AddOp.point (![5, 5] : Vec ℚ 2), AddOp.box exBoxB],
    ([AddOp.point (![5, 5] : Vec ℚ 2), AddOp.box exBoxB].foldl AddOp.run exBoxA).max 1 = op.hi 1 :=
  ((C09_history exBoxA [AddOp.point (![5, 5] : Vec ℚ 2), AddOp.box exBoxB]).2.2.2 1).resolve_left (by decide +kernel)
example (i : Fin 2) : |([AddOp.point (![5, 5] : Vec ℚ 2), AddOp.box exBoxB].foldl AddOp.run exBoxA).min i
    - ([AddOp.box exBoxB, AddOp.point ![5, 5]].foldl AddOp.run exBoxA).min i| ≤ eps :=
  (C10_order exBoxA _ _ (List.Perm.swap _ _ _) i).1
/-- With exact comparisons. -/
example : letI : Tol ℤ := ⟨0, fun a b _ => decide (a < b), fun a b _ => decide (b < a), fun a b _ => decide (a ≤ b), fun a b _ => decide (b ≤ a),
      fun a b _ => decide (a = b), fun a _ => decide (a = 0)⟩
    [![5, 5], ![1, 7]].foldl AABB.add (⟨![0, 0], ![1, 1]⟩ : AABB ℤ 2) = [![1, 7], ![5, 5]].foldl AABB.add (⟨![0, 0], ![1, 1]⟩ : AABB ℤ 2) :=
  letI : Tol ℤ := ⟨0, fun a b _ => decide (a < b), fun a b _ => decide (b < a), fun a b _ => decide (a ≤ b), fun a b _ => decide (b ≤ a),
      fun a b _ => decide (a = b), fun a _ => decide (a = 0)⟩
  C10_order_exact (fun _ _ => rfl) (fun _ _ => rfl) _ _ _ (List.Perm.swap _ _ _)
/-- The box grown from the default box by (-3, -3) and (4, 4). -/
example : ([![-3, -3], ![4, 4]].foldl AABB.add (AABB.default : AABB ℚ 2)).Has eps ![4, 4] :=
  (C12_default_partial [(![-3, -3] : Vec ℚ 2), ![4, 4]]
    (fun i => ⟨![-3, -3], by simp, by fin_cases i <;> norm_num [eps, Tol.eps]⟩)
    (fun i => ⟨![4, 4], by simp, by fin_cases i <;> norm_num [eps, Tol.eps]⟩)).1 _ (by simp)
example : (AABB.default : AABB ℚ 2).isEmpty = true := (C12_default_invalid (by norm_num) (by norm_num [eps, Tol.eps])).2
example : exBoxA.isValid = true := (C13_valid_partial exBoxA).2 (by intro i; fin_cases i <;> norm_num [exBoxA, eps, Tol.eps])
example : exBoxA.isEmpty = false := (C13_empty exBoxA).1 ⟨![1 / 2, 1 / 2], by intro i; fin_cases i <;> norm_num [exBoxA, Spec.inInterval]⟩
/-- Boxes that only touch have no overlap on the axis. -/
example : aabbIsIntersecting exBoxB exBoxA = true ∧ aabbIsIntersecting exBoxA ⟨![1, 0], ![2, 1]⟩ = false := by
  refine ⟨?_, ?_⟩
  · rw [C14_symmetric]
    exact (C14_exact exBoxA exBoxB (by decide +kernel) (by decide +kernel)).1 (by
      intro i; fin_cases i <;> norm_num [exBoxA, exBoxB, Spec.axisOverlap, eps, Tol.eps])
  · rw [← Bool.not_eq_true]
    intro h
    have := (C14_exact exBoxA ⟨![1, 0], ![2, 1]⟩ (by decide +kernel) (by decide +kernel)).2 h 0
    norm_num [exBoxA, Spec.axisOverlap, eps, Tol.eps] at this
example : ∃ b, aabbIntersect true exBoxA exBoxB = .ok b ∧ (b.Has 0 ![3 / 4, 1 / 4] ↔ (exBoxA.Has 0 ![3 / 4, 1 / 4] ∧ exBoxB.Has 0 ![3 / 4, 1 / 4])) := by
  obtain ⟨b, h1, -, h2, -⟩ := C15_intersect true exBoxA exBoxB (by norm_num) (by decide +kernel) (by decide +kernel)
  exact ⟨b, h1, h2 (by decide +kernel) _⟩

section
@[instance_reducible] noncomputable def lim1000 : HasLimits ℝ := ⟨1000, -1000⟩
attribute [local instance] realTol realTol_lawful lim1000
/-- The box of (1, 2, 3) and (4, 5, -6) starts at -6 in the third coordinate. -/
example : ∃ b : AABB ℝ 3, makeAABB false [![1, 2, 3], ![4, 5, -6]] = .ok b ∧ b.min 2 = -6 := by
  obtain ⟨b, h1, h2⟩ := C11_make_aabb false [(![1, 2, 3] : Vec ℝ 3), ![4, 5, -6]] (by simp) (by
    intro p hp i
    simp only [List.mem_cons, List.not_mem_nil, or_false] at hp
    show (-1000 : ℝ) ≤ _ ∧ _ ≤ (1000 : ℝ)
    rcases hp with rfl | rfl <;> fin_cases i <;> simp <;> norm_num)
  refine ⟨b, h2, ?_⟩
  obtain ⟨⟨p, hp, h3⟩, h4⟩ := (h1 2).1
  have h5 : b.min 2 ≤ -6 := h4 ⟨![4, 5, -6], by simp, by simp⟩
  simp only [List.mem_cons, List.not_mem_nil, or_false] at hp
  rcases hp with rfl | rfl
  · have h3 : b.min 2 = 3 := h3
    linarith
  · exact h3
/-- Along (3/5, 4/5) the points (5, 0) and (0, 10) have the coordinates 3 and 8. -/
example : ∃ m, extremePointsAlongDirection true (![3 / 5, 4 / 5] : Vec ℝ 2) [![5, 0], ![0, 10]] = .ok m ∧ 8 ≤ m.max := by
  obtain ⟨m, h1, -, h2⟩ := (C71_extreme true (![3 / 5, 4 / 5] : Vec ℝ 2) (by simp [Fin.sum_univ_two]; norm_num) [![5, 0], ![0, 10]] (by
    intro p hp
    simp only [List.mem_cons, List.not_mem_nil, or_false] at hp
    show (-1000 : ℝ) ≤ _ ∧ _ ≤ (1000 : ℝ)
    rcases hp with rfl | rfl <;> simp [Fin.sum_univ_two] <;> norm_num)).1 (by simp)
  exact ⟨m, h1, h2.2 ⟨![0, 10], by simp, by simp [Fin.sum_univ_two]; norm_num⟩⟩
end
end Examples
end Verif
