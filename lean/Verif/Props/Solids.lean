import Verif.Props.Transform
import Verif.Spec.Solids
import Mathlib.LinearAlgebra.LinearIndependent.Lemmas
import Mathlib.Analysis.SpecialFunctions.Trigonometric.Arctan

set_option linter.unusedSectionVars false

/-
Properties C67–C69: constructors of lines, rays and planes, corners of cuboids, measures of cones.
-/
namespace Verif
open Spec Matrix

/-! ### C67 -/
section
variable {D : ℕ}

theorem normalize_unit_along {d : Vec ℝ D} (hd : d ≠ 0) : Spec.norm (normalize d) = 1 ∧ ∃ s : ℝ, 0 < s ∧ normalize d = s • d := by
  refine ⟨?_, (length d)⁻¹, inv_pos.2 (length_pos hd), normalize_eq d⟩
  rw [spec_norm_eq, length_normalize hd]

/-- **C67** Lines. -/
theorem C67_line (o : Vec ℝ D) {d : Vec ℝ D} (hd : d ≠ 0) :
    (Line.make o d).origin = o ∧ Spec.norm (Line.make o d).direction = 1 ∧
    (∃ s : ℝ, 0 < s ∧ (Line.make o d).direction = s • d) ∧
    Spec.line (Line.make o d).origin (Line.make o d).direction = Spec.line o d :=
  ⟨rfl, (normalize_unit_along hd).1, (normalize_unit_along hd).2, line_normalize o hd⟩

/-- **C67** Rays: the same; a debug build refuses directions of length at most the tolerance, nothing else. -/
theorem C67_ray [Tol ℝ] [LawfulTol ℝ] (dbg : Bool) (o : Vec ℝ D) {d : Vec ℝ D} (hd : d ≠ 0) :
    (dbg = true ∧ Spec.norm d ≤ Tol.eps ∧ Ray.make dbg o d = .error .assertFailed) ∨
    ((dbg = true → Tol.eps < Spec.norm d) ∧ ∃ r, Ray.make dbg o d = .ok r ∧ r.origin = o ∧ Spec.norm r.direction = 1 ∧
      (∃ s : ℝ, 0 < s ∧ r.direction = s • d) ∧ Spec.ray r.origin r.direction = Spec.ray o d) := by
  rw [spec_norm_eq]
  by_cases h : dbg = true ∧ length d ≤ Tol.eps
  · left
    refine ⟨h.1, h.2, ?_⟩
    have hf : decide (Tol.eps < length d) = false := decide_eq_false (not_lt.2 h.2)
    rw [Ray.make, hf, h.1]; rfl
  · right
    refine ⟨fun hb => by by_contra hc; exact h ⟨hb, not_lt.1 hc⟩, ⟨o, normalize d⟩, ?_, rfl, (normalize_unit_along hd).1,
      (normalize_unit_along hd).2, ray_normalize o hd⟩
    cases dbg with
    | false => rfl
    | true =>
      have ht : decide (Tol.eps < length d) = true := decide_eq_true (by by_contra hc; exact h ⟨rfl, not_lt.1 hc⟩)
      rw [Ray.make, ht]; rfl

/-- **C67** Planes. -/
theorem C67_plane (o : Vec ℝ 3) {n : Vec ℝ 3} (hn : n ≠ 0) :
    (Plane.make o n).origin = o ∧ Spec.norm (Plane.make o n).normal = 1 ∧
    (∃ s : ℝ, 0 < s ∧ (Plane.make o n).normal = s • n) ∧
    Spec.plane (Plane.make o n).origin (Plane.make o n).normal = Spec.plane o n :=
  ⟨rfl, (normalize_unit_along hn).1, (normalize_unit_along hn).2, plane_normalize o hn⟩
end

/-! ### C68 -/
section
variable {K : Type*} [Field K]

theorem corner_eq (o : Vec K 3) (s : Fin 3 → Vec K 3) (a : Fin 3 → Bool) :
    corner o s a = o + ∑ i, (if a i then 1 else 0 : K) • s i := by
  funext k; simp only [corner, Finset.sum_apply, Pi.add_apply, Pi.smul_apply, smul_eq_mul]

/-- **C68** The eight vertices are the eight corners, each once per choice of edges. -/
theorem C68_corners (c : Cuboid K) : c.vertices.Perm (edgeChoices.map (corner c.origin c.sides)) := by
  have h : c.vertices = [![false, false, false], ![true, false, false], ![true, true, false], ![false, true, false],
      ![false, false, true], ![true, false, true], ![true, true, true], ![false, true, true]].map
        (corner c.origin c.sides) := by
    simp only [Cuboid.vertices, List.map_cons, List.map_nil, corner_eq, Fin.sum_univ_three, vadd_eq]
    simp [add_assoc]
  rw [h]
  apply List.Perm.map
  decide +kernel

/-- **C68** The choices of edges are all choices. -/
theorem C68_all_choices (a : Fin 3 → Bool) : a ∈ edgeChoices := by
  revert a; decide +kernel

/-- **C68** For linearly independent edges the eight vertices are pairwise different. -/
theorem C68_distinct (c : Cuboid K) (h : LinearIndependent K c.sides) : c.vertices.Nodup ∧ c.vertices.length = 8 := by
  refine ⟨?_, rfl⟩
  rw [(C68_corners c).nodup_iff]
  refine List.Nodup.map ?_ (by decide +kernel)
  intro a a' haa
  rw [corner_eq, corner_eq] at haa
  have h1 := add_left_cancel haa
  have h2 : ∑ i, ((if a i then 1 else 0 : K) - (if a' i then 1 else 0 : K)) • c.sides i = 0 := by
    simp only [sub_smul, Finset.sum_sub_distrib, h1, sub_self]
  have h3 := Fintype.linearIndependent_iff.1 h _ h2
  funext i
  have h4 := h3 i
  cases hb : a i <;> cases hb' : a' i <;> simp [hb, hb'] at h4 <;> rfl

/-- **C68** A cuboid built from a diagonal: the edges lie on the axes, both ends of the diagonal are vertices. -/
theorem C68_diagonal (o d : Vec K 3) :
    (Cuboid.ofDiagonal o d).origin = o ∧
    (∀ i j, (Cuboid.ofDiagonal o d).sides i j = if j = i then d i else 0) ∧
    o ∈ (Cuboid.ofDiagonal o d).vertices ∧ o + d ∈ (Cuboid.ofDiagonal o d).vertices ∧
    Cuboid.ofDiagonal0 d = Cuboid.ofDiagonal 0 d := by
  have hs : ∀ i j, (Cuboid.ofDiagonal o d).sides i j = if j = i then d i else 0 := by
    intro i j
    simp only [Cuboid.ofDiagonal, projection_eq, Pi.smul_apply, smul_eq_mul]
    have h1 : d ⬝ᵥ unitVector i = d i := by simp [dotProduct, unitVector]
    have h2 : (unitVector i : Vec K 3) ⬝ᵥ unitVector i = 1 := by simp [dotProduct, unitVector]
    rw [h1, h2, unitVector]
    split <;> simp
  refine ⟨rfl, hs, by simp [Cuboid.vertices]; left; rfl, ?_, rfl⟩
  have : o + d = vadd (vadd (vadd o ((Cuboid.ofDiagonal o d).sides 0)) ((Cuboid.ofDiagonal o d).sides 1))
      ((Cuboid.ofDiagonal o d).sides 2) := by
    funext k
    simp only [vadd, hs, Pi.add_apply]
    match k with
    | 0 => simp
    | 1 => simp
    | 2 => simp
  rw [this]
  simp [Cuboid.vertices]
  tauto

/-- **C68** With non-zero diagonal components the edges are linearly independent. -/
theorem C68_diagonal_independent (o d : Vec K 3) (hd : ∀ i, d i ≠ 0) : LinearIndependent K (Cuboid.ofDiagonal o d).sides := by
  rw [Fintype.linearIndependent_iff]
  intro g hg i
  have h := congrFun hg i
  simp only [Finset.sum_apply, Pi.smul_apply, (C68_diagonal o d).2.1, smul_eq_mul, Pi.zero_apply] at h
  simp at h
  exact h.resolve_right (hd i)
end

/-! ### C69 -/

/-- **C69** The measures of a cone with positive height and radius: the height is the length of the axis, the slant
height is the distance of the apex from every point of the base circle, and half the opening angle is the angle at the
apex of the right triangle formed by both. -/
theorem C69_measures (c : Cone ℝ) (hr : 0 < c.radius) (hs : c.segment.source ≠ c.segment.target) :
    c.height = Spec.dist c.segment.source c.segment.target ∧ 0 < c.height ∧
    c.slantHeight ^ 2 = c.height ^ 2 + c.radius ^ 2 ∧
    (∀ p ∈ Spec.circle c.segment.source (c.segment.target - c.segment.source) c.radius,
      Spec.dist p c.segment.target = c.slantHeight) ∧
    0 < c.openingAngle ∧ c.openingAngle < Real.pi ∧ Real.tan (c.openingAngle / 2) = c.radius / c.height ∧
    c.slantHeight * Real.cos (c.openingAngle / 2) = c.height ∧
    c.slantHeight * Real.sin (c.openingAngle / 2) = c.radius := by
  have hh : c.height = Spec.dist c.segment.source c.segment.target := by
    rw [Cone.height, Segment.length, length_vsub, dist_comm']
  have hp : 0 < c.height := by
    rw [hh]
    exact lt_of_le_of_ne (dist_nonneg' _ _) fun e => hs (eq_of_dist_le_zero' e.symm.le)
  have hsl : c.slantHeight = Real.sqrt (c.radius * c.radius + c.height * c.height) := rfl
  have hsl2 : c.slantHeight ^ 2 = c.height ^ 2 + c.radius ^ 2 := by
    rw [hsl, Real.sq_sqrt (by positivity)]; ring
  have hslp : 0 < c.slantHeight := by rw [hsl]; positivity
  have ha : c.openingAngle = Real.arctan (c.radius / c.height) * 2 := rfl
  have ha2 : c.openingAngle / 2 = Real.arctan (c.radius / c.height) := by rw [ha]; ring
  have hpos : 0 < c.radius / c.height := by positivity
  have hcos : c.slantHeight * Real.cos (c.openingAngle / 2) = c.height := by
    rw [ha2, Real.cos_arctan]
    have h1 : Real.sqrt (1 + (c.radius / c.height) ^ 2) = c.slantHeight / c.height := by
      have h2 : 1 + (c.radius / c.height) ^ 2 = (c.slantHeight / c.height) ^ 2 := by
        rw [div_pow, div_pow, hsl2]; field_simp
      rw [h2, Real.sqrt_sq (by positivity)]
    rw [h1]; field_simp
  have htan : Real.tan (c.openingAngle / 2) = c.radius / c.height := by rw [ha2, Real.tan_arctan]
  refine ⟨hh, hp, hsl2, ?_, ?_, ?_, htan, hcos, ?_⟩
  · rintro p ⟨h1, h2⟩
    rw [hsl, hh, spec_dist_eq, spec_dist_eq]
    rw [spec_dist_eq] at h1
    have h3 : p - c.segment.target = (p - c.segment.source) - (c.segment.target - c.segment.source) := by abel
    have h4 : c.segment.source - c.segment.target = -(c.segment.target - c.segment.source) := by abel
    rw [h3, dp_sub_self, h2, h4, neg_dotProduct_neg, Real.mul_self_sqrt (dp_self_nonneg _), ← h1,
      Real.mul_self_sqrt (dp_self_nonneg _)]
    congr 1; ring
  · rw [ha]; have := Real.arctan_pos.2 hpos; linarith
  · rw [ha]; have := Real.arctan_lt_pi_div_two (c.radius / c.height); linarith
  · have hc : 0 < Real.cos (c.openingAngle / 2) := by rw [ha2]; exact Real.cos_arctan_pos _
    have : Real.sin (c.openingAngle / 2) = Real.tan (c.openingAngle / 2) * Real.cos (c.openingAngle / 2) :=
      (Real.tan_mul_cos hc.ne').symm
    rw [this, htan, mul_left_comm, hcos]; field_simp

section Examples
attribute [local instance] realTol realTol_lawful

example : Spec.norm (Line.make ![1, 2, 3] ![0, 3, 4] : Line ℝ 3).direction = 1 :=
  (C67_line _ (by intro h; simpa using congrFun h 1)).2.1

example : ∃ r, Ray.make true ![1, 2, 3] ![0, 3, (4 : ℝ)] = .ok r ∧ Spec.norm r.direction = 1 := by
  have h5 : Spec.norm ![0, 3, (4 : ℝ)] = 5 := by
    rw [Spec.norm, show (∑ i, (![0, 3, (4 : ℝ)] i) ^ 2) = 5 ^ 2 by simp [Fin.sum_univ_three]; norm_num]
    exact Real.sqrt_sq (by norm_num)
  rcases C67_ray true ![1, 2, 3] (d := ![0, 3, (4 : ℝ)]) (by intro h; simpa using congrFun h 1) with h | ⟨-, r, h1, -, h2, -⟩
  · exfalso
    have := h.2.1
    rw [h5] at this
    have h6 : (Tol.eps : ℝ) = 1 / 1000 := rfl
    rw [h6] at this
    norm_num at this
  · exact ⟨r, h1, h2⟩

example : Spec.plane (Plane.make ![1, 2, 3] ![0, 3, 4] : Plane ℝ).origin (Plane.make ![1, 2, 3] ![0, 3, 4] : Plane ℝ).normal =
    Spec.plane ![1, 2, 3] ![0, 3, (4 : ℝ)] := (C67_plane _ (by intro h; simpa using congrFun h 1)).2.2.2

example : (Cuboid.ofDiagonal ![1, 2, 3] ![4, 5, (6 : ℝ)]).vertices.Nodup :=
  (C68_distinct _ (C68_diagonal_independent _ _ (by intro i; fin_cases i <;> norm_num))).1

example : (⟨⟨![0, 0, 0], ![0, 0, 4]⟩, 3⟩ : Cone ℝ).slantHeight ^ 2 =
    (⟨⟨![0, 0, 0], ![0, 0, 4]⟩, 3⟩ : Cone ℝ).height ^ 2 + 3 ^ 2 :=
  (C69_measures ⟨⟨![0, 0, 0], ![0, 0, 4]⟩, 3⟩ (by norm_num) (by intro h; have := congrFun h 2; simp at this)).2.2.1
example : ![true, false, true] ∈ edgeChoices := C68_all_choices _
end Examples
end Verif
