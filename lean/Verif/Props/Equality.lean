import Verif.Model.Equality
import Verif.Spec.Equality
import Verif.Proofs.TolExample
import Mathlib.Data.List.OfFn
import Mathlib.Data.List.Forall2
import Mathlib.Data.Fin.VecNotation
import Mathlib.Tactic.Linarith
import Mathlib.Tactic.FinCases

set_option linter.unusedSectionVars false

/-
C75, C76: comparing shapes.
-/
namespace Verif
open Spec
variable {K : Type} [Field K] [LinearOrder K] [IsStrictOrderedRing K] [Tol K] [LawfulTol K] {D : Nat}

theorem isEq_of_near {a b : K} (h : |a - b| < eps) : isEq a b = true := by
  have h1 := (abs_lt.1 h).1
  have h2 := (abs_lt.1 h).2
  rw [isEq_eq, not_isLess (by linarith), not_isLess (by linarith)]; rfl

theorem near_of_isEq {a b : K} (h : isEq a b = true) : |a - b| ≤ eps := by
  rw [isEq_eq] at h
  simp only [Bool.and_eq_true, Bool.not_eq_true'] at h
  have h1 := of_not_isLess h.1
  have h2 := of_not_isLess h.2
  rw [abs_le]; constructor <;> linarith

theorem isEq_symm (a b : K) : isEq a b = isEq b a := by rw [isEq_eq, isEq_eq, Bool.and_comm]

theorem isEq_refl (a : K) : isEq a a = true := isEq_of_near (by simpa using eps_pos (K := K))

theorem agree_append {r : K → K → Prop} : ∀ {a a' b b' : List K}, a.length = a'.length →
    (Agree r (a ++ b) (a' ++ b') ↔ Agree r a a' ∧ Agree r b b') := by
  unfold Agree
  intro a
  induction a with
  | nil =>
    intro a' b b' h
    obtain rfl := List.length_eq_zero_iff.1 h.symm
    simp
  | cons x a ih =>
    intro a' b b' h
    cases a' with
    | nil => cases h
    | cons y a' =>
      simp only [List.length_cons, Nat.add_right_cancel_iff] at h
      simp [ih h, and_assoc]

theorem agree_ofFn {r : K → K → Prop} {u v : Vec K D} : Agree r (List.ofFn u) (List.ofFn v) ↔ ∀ i, r (u i) (v i) := by
  unfold Agree
  rw [List.forall₂_iff_get]
  constructor
  · rintro ⟨_, h⟩ i
    simpa using h i.val (by simp) (by simp)
  · intro h
    refine ⟨by simp, fun i h1 h2 => by simpa using h ⟨i, by simpa using h1⟩⟩

/-- A comparison made of comparisons. -/
theorem _root_.Verif.Spec.ComparesUpTo.and {S A B : Type*} {e : K} {ca : A → List K} {cb : B → List K} {ea na : A → A → Bool} {eb nb : B → B → Bool}
    (f : S → A) (g : S → B) (hl : ∀ l r, (ca l).length = (ca r).length)
    (ha : ComparesUpTo e ca ea na) (hb : ComparesUpTo e cb eb nb) :
    ComparesUpTo e (fun s => ca (f s) ++ cb (g s)) (fun l r => ea (f l) (f r) && eb (g l) (g r))
      (fun l r => !(ea (f r) (f l) && eb (g r) (g l))) where
  near l r h := by
    obtain ⟨h1, h2⟩ := (agree_append (hl (f l) (f r))).1 h
    simp [ha.near _ _ h1, hb.near _ _ h2]
  far l r h := by
    simp only [Bool.and_eq_true] at h
    exact (agree_append (hl (f l) (f r))).2 ⟨ha.far _ _ h.1, hb.far _ _ h.2⟩
  refl l := by simp [ha.refl, hb.refl]
  symm l r := by rw [ha.symm, hb.symm]
  ne_iff l r := by rw [ha.symm, hb.symm]

theorem compares_scalar : ComparesUpTo (eps (K := K)) (fun a => [a]) isEq (fun a b => !isEq b a) where
  near l r h := isEq_of_near (by simpa [Agree] using h)
  far l r h := by simpa [Agree] using near_of_isEq h
  refl := isEq_refl
  symm := isEq_symm
  ne_iff l r := by rw [isEq_symm]

theorem compares_vec : ComparesUpTo (eps (K := K)) (fun v : Vec K D => List.ofFn v) isEqualVec (fun u v => !isEqualVec v u) where
  near l r h := by
    unfold isEqualVec
    rw [forallFin_iff]
    exact fun i => isEq_of_near (agree_ofFn.1 h i)
  far l r h := by
    unfold isEqualVec at h
    rw [forallFin_iff] at h
    exact agree_ofFn.2 fun i => near_of_isEq (h i)
  refl l := by
    unfold isEqualVec
    rw [forallFin_iff]
    exact fun i => isEq_refl _
  symm l r := by
    unfold isEqualVec
    simp only [isEq_symm]
  ne_iff l r := by
    unfold isEqualVec
    simp only [isEq_symm]

/-! The coordinates of the shapes. -/
def Interval.coords (s : Interval K) : List K := [s.start] ++ [s.stop]
def AABB.coords (s : AABB K D) : List K := List.ofFn s.min ++ List.ofFn s.max
def Line.coords (s : Line K D) : List K := List.ofFn s.origin ++ List.ofFn s.direction
def Ray.coords (s : Ray K D) : List K := List.ofFn s.origin ++ List.ofFn s.direction
def Plane.coords (s : Plane K) : List K := List.ofFn s.origin ++ List.ofFn s.normal
def Segment.coords (s : Segment K D) : List K := List.ofFn s.source ++ List.ofFn s.target
def Sphere.coords (s : Sphere K) : List K := List.ofFn s.origin ++ [s.radius]
def Circle2.coords (s : Circle2 K) : List K := List.ofFn s.origin ++ [s.radius]
def Circle3.coords (s : Circle3 K) : List K := List.ofFn s.origin ++ [s.radius] ++ List.ofFn s.normal
def Cone.coords (s : Cone K) : List K := s.segment.coords ++ [s.radius]
def Cylinder.coords (s : Cylinder K) : List K := s.segment.coords ++ [s.radius]
def Cuboid.coords (s : Cuboid K) : List K :=
  List.ofFn s.origin ++ List.ofFn (s.sides 0) ++ List.ofFn (s.sides 1) ++ List.ofFn (s.sides 2)

/-- **C75** Every `operator==` compares exactly the coordinates that define the shape, with the default tolerance. -/
theorem C75_interval : ComparesUpTo (eps (K := K)) Interval.coords Interval.beq Interval.bne :=
  .and Interval.start Interval.stop (by simp) compares_scalar compares_scalar
theorem C75_aabb : ComparesUpTo (eps (K := K)) (AABB.coords (D := D)) AABB.beq AABB.bne :=
  let h := ComparesUpTo.and AABB.min AABB.max (by simp) (compares_vec (K := K) (D := D)) compares_vec
  ⟨h.near, h.far, h.refl, h.symm, fun _ _ => rfl⟩
theorem C75_line : ComparesUpTo (eps (K := K)) (Line.coords (D := D)) Line.beq Line.bne :=
  .and Line.origin Line.direction (by simp) compares_vec compares_vec
theorem C75_ray : ComparesUpTo (eps (K := K)) (Ray.coords (D := D)) Ray.beq Ray.bne :=
  .and Ray.origin Ray.direction (by simp) compares_vec compares_vec
theorem C75_plane : ComparesUpTo (eps (K := K)) Plane.coords Plane.beq Plane.bne :=
  .and Plane.origin Plane.normal (by simp) compares_vec compares_vec
theorem C75_segment : ComparesUpTo (eps (K := K)) (Segment.coords (D := D)) Segment.beq Segment.bne :=
  .and Segment.source Segment.target (by simp) compares_vec compares_vec
theorem C75_sphere : ComparesUpTo (eps (K := K)) Sphere.coords Sphere.beq Sphere.bne :=
  .and Sphere.origin Sphere.radius (by simp) compares_vec compares_scalar
theorem C75_circle2 : ComparesUpTo (eps (K := K)) Circle2.coords Circle2.beq Circle2.bne :=
  .and Circle2.origin Circle2.radius (by simp) compares_vec compares_scalar
theorem C75_circle3 : ComparesUpTo (eps (K := K)) Circle3.coords Circle3.beq Circle3.bne :=
  .and id Circle3.normal (by simp) (.and Circle3.origin Circle3.radius (by simp) compares_vec compares_scalar) compares_vec
theorem C75_cone : ComparesUpTo (eps (K := K)) Cone.coords Cone.beq Cone.bne :=
  .and Cone.segment Cone.radius (by simp [Segment.coords]) C75_segment compares_scalar
theorem C75_cylinder : ComparesUpTo (eps (K := K)) Cylinder.coords Cylinder.beq Cylinder.bne :=
  .and Cylinder.segment Cylinder.radius (by simp [Segment.coords]) C75_segment compares_scalar
theorem C75_cuboid : ComparesUpTo (eps (K := K)) Cuboid.coords Cuboid.beq Cuboid.bne :=
  .and id (fun s : Cuboid K => s.sides 2) (by simp)
    (.and id (fun s : Cuboid K => s.sides 1) (by simp)
      (.and Cuboid.origin (fun s : Cuboid K => s.sides 0) (by simp) compares_vec compares_vec) compares_vec) compares_vec

/-- **C76**, what does hold: shapes that are both equal to a third one differ by at most twice the tolerance. Missing:
transitivity (`C76_not_transitive`) and independence of the representation (`C76_same_line`, `C76_same_segment`). -/
theorem C76_chain_partial {S : Type*} {coords : S → List K} {eq ne : S → S → Bool} (h : ComparesUpTo (eps (K := K)) coords eq ne)
    {a b c : S} (hab : eq a b = true) (hbc : eq b c = true) : Agree (fun x y => |x - y| ≤ 2 * eps) (coords a) (coords c) := by
  have h1 := h.far _ _ hab
  have h2 := h.far _ _ hbc
  unfold Agree at *
  rw [List.forall₂_iff_get] at *
  obtain ⟨l1, h1⟩ := h1
  obtain ⟨l2, h2⟩ := h2
  refine ⟨l1.trans l2, fun i hi hi' => ?_⟩
  have e1 := h1 i hi (l1 ▸ hi)
  have e2 := h2 i (l1 ▸ hi) hi'
  have := abs_sub_le ((coords a).get ⟨i, hi⟩) ((coords b).get ⟨i, l1 ▸ hi⟩) ((coords c).get ⟨i, hi'⟩)
  linarith

/-- **C76** is false, first part: `==` is not transitive, whatever the tolerance. -/
theorem C76_not_transitive : ∃ a b c : Interval K, a.beq b = true ∧ b.beq c = true ∧ a.beq c = false := by
  have he := eps_pos (K := K)
  have hs : |(3 / 4 : K) * eps| < eps := by rw [abs_of_pos (by linarith)]; linarith
  refine ⟨⟨0, 0⟩, ⟨3 / 4 * eps, 0⟩, ⟨3 / 2 * eps, 0⟩, ?_, ?_, ?_⟩
  · simp only [Interval.beq, isEq_refl, Bool.and_true]
    exact isEq_of_near (by rw [zero_sub, abs_neg]; exact hs)
  · simp only [Interval.beq, isEq_refl, Bool.and_true]
    refine isEq_of_near ?_
    rw [show (3 / 4 * eps - 3 / 2 * eps : K) = -(3 / 4 * eps) by ring, abs_neg]; exact hs
  · simp only [Interval.beq, isEq_refl, Bool.and_true]
    by_contra hc
    have := near_of_isEq (by simpa using hc)
    rw [zero_sub, abs_neg, abs_of_pos (by linarith)] at this
    linarith

/-- **C76** is false, second part: the same line given by another of its points is not equal to it. -/
theorem C76_same_line (l : Line K D) (i : Fin D) {t : K} (h : eps < |t * l.direction i|) :
    let l' : Line K D := ⟨vadd l.origin (vscale l.direction t), l.direction⟩
    {p : Vec K D | ∃ s, p = vadd l.origin (vscale l.direction s)} = {p | ∃ s, p = vadd l'.origin (vscale l'.direction s)} ∧
      l.beq l' = false := by
  constructor
  · ext p
    constructor
    · rintro ⟨s, rfl⟩
      exact ⟨s - t, by funext j; simp only [vadd, vscale]; ring⟩
    · rintro ⟨s, rfl⟩
      exact ⟨s + t, by funext j; simp only [vadd, vscale]; ring⟩
  · by_contra hc
    have hf := (C75_line (K := K)).far _ _ (by simpa using hc)
    have := agree_ofFn.1 ((agree_append (by simp)).1 hf).1 i
    simp only [vadd, vscale, sub_add_cancel_left, abs_neg] at this
    rw [mul_comm] at h
    linarith

/-- **C76** is false, third part: a segment is not equal to the same segment given from the other end. -/
theorem C76_same_segment (s : Segment K D) (i : Fin D) (h : eps < |s.target i - s.source i|) :
    s.beq ⟨s.target, s.source⟩ = false := by
  by_contra hc
  have hf := (C75_segment (K := K)).far _ _ (by simpa using hc)
  have := agree_ofFn.1 ((agree_append (by simp)).1 hf).1 i
  dsimp only at this
  rw [abs_sub_comm] at this
  linarith

section Examples
attribute [local instance] ratTol ratTol_lawful

/-- C75: spheres that differ by less than the tolerance, and by more. -/
example : Sphere.beq (⟨![0, 0, 1], 2⟩ : Sphere ℚ) ⟨![0, 0, 1 + 1 / 2000], 2 - 1 / 2000⟩ = true := by decide +kernel
example : Sphere.beq (⟨![0, 0, 1], 2⟩ : Sphere ℚ) ⟨![0, 0, 1], 3⟩ = false ∧
    Sphere.bne (⟨![0, 0, 1], 2⟩ : Sphere ℚ) ⟨![0, 0, 1], 3⟩ = true := by decide +kernel
example : Cuboid.beq (⟨![0, 0, 0], ![![1, 0, 0], ![0, 1, 0], ![0, 0, 1]]⟩ : Cuboid ℚ)
    ⟨![0, 0, 0], ![![1, 0, 0], ![0, 1, 0], ![0, 0, 2]]⟩ = false := by decide +kernel
/-- C76: a chain of two equalities. -/
example : Agree (fun x y => |x - y| ≤ 2 * eps) (Interval.coords (⟨0, 1⟩ : Interval ℚ)) (Interval.coords ⟨3 / 2000, 1⟩) :=
  C76_chain_partial C75_interval (b := ⟨3 / 4000, 1⟩) (by decide +kernel) (by decide +kernel)
/-- C76: the x axis through the origin and through (1, 0). -/
example : Line.beq (⟨![0, 0], ![1, 0]⟩ : Line ℚ 2) ⟨vadd ![0, 0] (vscale ![1, 0] 1), ![1, 0]⟩ = false :=
  (C76_same_line ⟨![0, 0], ![1, 0]⟩ 0 (t := 1) (by decide +kernel)).2
example : Segment.beq (⟨![0, 0], ![1, 0]⟩ : Segment ℚ 2) ⟨![1, 0], ![0, 0]⟩ = false :=
  C76_same_segment ⟨![0, 0], ![1, 0]⟩ 0 (by decide +kernel)
/-! C75 for the other types: values that differ by half the tolerance in one coordinate. -/
theorem ex_eps1000 : (eps : ℚ) = 1 / 1000 := rfl
example : AABB.beq (⟨![0, 0], ![1, 1]⟩ : AABB ℚ 2) ⟨![0, 0], ![1, 1 + 1 / 2000]⟩ = true :=
  C75_aabb.near _ _ (by simp [Agree, AABB.coords, ex_eps1000]; norm_num)
example : Line.beq (⟨![0, 0], ![1, 0]⟩ : Line ℚ 2) ⟨![0, 1 / 2000], ![1, 0]⟩ = true :=
  C75_line.near _ _ (by simp [Agree, Line.coords, ex_eps1000]; norm_num)
example : Ray.beq (⟨![0, 0], ![1, 0]⟩ : Ray ℚ 2) ⟨![0, 1 / 2000], ![1, 0]⟩ = true :=
  C75_ray.near _ _ (by simp [Agree, Ray.coords, ex_eps1000]; norm_num)
example : Plane.beq (⟨![0, 0, 3], ![1, 0, 0]⟩ : Plane ℚ) ⟨![0, 0, 3 - 1 / 2000], ![1, 0, 0]⟩ = true :=
  C75_plane.near _ _ (by simp [Agree, Plane.coords, ex_eps1000]; norm_num)
example : Segment.beq (⟨![0, 0], ![1, 5]⟩ : Segment ℚ 2) ⟨![0, 0], ![1, 5 + 1 / 2000]⟩ = true :=
  C75_segment.near _ _ (by simp [Agree, Segment.coords, ex_eps1000]; norm_num)
example : Sphere.beq (⟨![0, 0, 1], 2⟩ : Sphere ℚ) ⟨![0, 0, 1], 2 - 1 / 2000⟩ = true :=
  C75_sphere.near _ _ (by simp [Agree, Sphere.coords, ex_eps1000]; norm_num)
example : Circle2.beq (⟨![0, 1], 2⟩ : Circle2 ℚ) ⟨![0, 1], 2 - 1 / 2000⟩ = true :=
  C75_circle2.near _ _ (by simp [Agree, Circle2.coords, ex_eps1000]; norm_num)
example : Circle3.beq (⟨![0, 1, 7], 2, ![0, 0, 1]⟩ : Circle3 ℚ) ⟨![0, 1, 7], 2 - 1 / 2000, ![0, 0, 1]⟩ = true :=
  C75_circle3.near _ _ (by simp [Agree, Circle3.coords, ex_eps1000]; norm_num)
example : Cone.beq (⟨⟨![0, 1, 7], ![0, 1, 9]⟩, 2⟩ : Cone ℚ) ⟨⟨![0, 1, 7], ![0, 1, 9]⟩, 2 + 1 / 2000⟩ = true :=
  C75_cone.near _ _ (by simp [Agree, Cone.coords, Segment.coords, ex_eps1000]; norm_num)
example : Cylinder.beq (⟨⟨![0, 1, 7], ![0, 1, 9]⟩, 2⟩ : Cylinder ℚ) ⟨⟨![0, 1, 7], ![0, 1, 9]⟩, 2 + 1 / 2000⟩ = true :=
  C75_cylinder.near _ _ (by simp [Agree, Cylinder.coords, Segment.coords, ex_eps1000]; norm_num)
example : Cuboid.beq (⟨![0, 0, 0], ![![1, 0, 0], ![0, 1, 0], ![0, 0, 1]]⟩ : Cuboid ℚ)
    ⟨![0, 0, 0], ![![1, 0, 0], ![0, 1, 0], ![0, 0, 1 + 1 / 2000]]⟩ = true :=
  C75_cuboid.near _ _ (by simp [Agree, Cuboid.coords, ex_eps1000]; norm_num)
example := C76_not_transitive (K := ℚ)
end Examples
end Verif
