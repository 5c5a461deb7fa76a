import Verif.Spec.Volume
import Verif.Props.Convex
import Mathlib.Analysis.SpecialFunctions.Trigonometric.Bounds
import Mathlib.Analysis.Real.Pi.Bounds

set_option linter.unusedSectionVars false

/-
Volumes of closed surfaces.
-/
namespace Verif
open Spec Matrix Real

theorem volume_eq (c : Vec ℝ 3) (ts : List (Vec ℝ 3 × Vec ℝ 3 × Vec ℝ 3)) : volume c ts = -(ts.map fun t => side t c).sum / 6 := by
  unfold volume
  induction ts with
  | nil => simp
  | cons t ts ih =>
    rw [List.map_cons, List.sum_cons, List.map_cons, List.sum_cons, ih, ← eta3 t, side_eq, det_fin_three]
    simp
    ring

/-- An antisymmetric function of the edges adds up to zero over a closed surface. -/
theorem closed_sum {V : Type} {ts : List (V × V × V)} (h : ClosedOriented ts) (f : V → V → ℝ) (hf : ∀ a b, f a b = -f b a) :
    ((directedEdges ts).map fun e => f e.1 e.2).sum = 0 := by
  have hp : ((directedEdges ts).map Prod.swap).Perm (directedEdges ts) := by
    rw [List.perm_ext_iff_of_nodup (h.1.map Prod.swap_injective) h.1]
    rintro ⟨a, b⟩
    constructor
    · intro hm
      obtain ⟨⟨x, y⟩, hxy, e⟩ := List.mem_map.1 hm
      simp only [Prod.swap_prod_mk, Prod.mk.injEq] at e
      obtain ⟨rfl, rfl⟩ := e
      exact h.2 _ _ hxy
    · intro hm
      exact List.mem_map.2 ⟨(b, a), h.2 _ _ hm, rfl⟩
  have h1 := (hp.map fun e => f e.1 e.2).sum_eq
  rw [List.map_map] at h1
  have h2 : ((fun e : V × V => f e.1 e.2) ∘ Prod.swap) = fun e => -(f e.1 e.2) := by
    funext e; exact hf _ _
  have h3 : ∀ l : List (V × V), (l.map fun e => -(f e.1 e.2)).sum = -(l.map fun e => f e.1 e.2).sum := by
    intro l; induction l with
    | nil => simp
    | cons a l ih => simp only [List.map_cons, List.sum_cons, ih]; ring
  rw [h2, h3] at h1
  linarith

/-- The volume enclosed by a closed surface does not depend on the apex. -/
theorem volume_base {V : Type} {ts : List (V × V × V)} (h : ClosedOriented ts) (P : V → Vec ℝ 3) (c c' : Vec ℝ 3) :
    volume c (ts.map (mapTriangle P)) = volume c' (ts.map (mapTriangle P)) := by
  have key : ∀ us : List (V × V × V), ((us.map (mapTriangle P)).map fun t => side t c).sum - ((us.map (mapTriangle P)).map fun t => side t c').sum =
      ((directedEdges us).map fun e => (P e.1 ⨯₃ P e.2) ⬝ᵥ (c - c')).sum := by
    intro us
    induction us with
    | nil => simp [directedEdges]
    | cons t us ih =>
      have e : directedEdges (t :: us) = [(t.1, t.2.1), (t.2.1, t.2.2), (t.2.2, t.1)] ++ directedEdges us := rfl
      rw [e, List.map_append, List.sum_append, ← ih]
      simp only [List.map_cons, List.sum_cons, List.map_nil, List.sum_nil, mapTriangle]
      rw [side_eq, side_eq]
      simp only [cross_apply, dotProduct, Fin.sum_univ_three, Pi.sub_apply]
      simp
      ring
  have h0 := closed_sum h (fun a b => (P a ⨯₃ P b) ⬝ᵥ (c - c')) (fun a b => by
    show (P a ⨯₃ P b) ⬝ᵥ (c - c') = -((P b ⨯₃ P a) ⬝ᵥ (c - c'))
    rw [← cross_anticomm, neg_dotProduct])
  have := key ts
  rw [h0] at this
  rw [volume_eq, volume_eq]
  linarith

/-- The triangles of the mesh, read with its accessors, facet by facet. -/
def Reads (m : HalfedgeMesh (Vec ℝ 3)) (ts : List (Vec ℝ 3 × Vec ℝ 3 × Vec ℝ 3)) : Prop :=
  List.Forall₂ (fun f t => ∃ h0 h1 h2, calcHalfedges m f = .ok [h0, h1, h2] ∧ m.heVector h0 = .ok t.1 ∧
    m.heVector h1 = .ok t.2.1 ∧ m.heVector h2 = .ok t.2.2) m.facets ts

theorem reads_of_built [BEq (Vec ℝ 3)] [LawfulBEq (Vec ℝ 3)] (dbg : Bool) (M : Nat) (ts : List (Vec ℝ 3 × Vec ℝ 3 × Vec ℝ 3))
    (hM : 3 * ts.length < M) (m : HalfedgeMesh (Vec ℝ 3)) (hb : BuiltFrom dbg M ts m) : Reads m ts := by
  have hfl : m.facets.length = ts.length := by
    obtain ⟨o, rfl⟩ := hb.eq hM
    simp [meshOfO, facetsOf, weld_length, corners_length]
  rw [Reads, List.forall₂_iff_get]
  refine ⟨hfl, fun k h1 h2 => ?_⟩
  obtain ⟨f, hf, h⟩ := facet_corners_get dbg M ts hM m hb k h2
  have hg : m.facets[k]? = some f := vecGet_eq_ok.1 hf
  rw [List.getElem?_eq_getElem h1, Option.some.injEq] at hg
  show ∃ h0 h1 h2, calcHalfedges m m.facets[k] = _ ∧ _
  rw [hg]
  exact h

/-- Mesh reading gives one result. -/
theorem Reads.unique {m : HalfedgeMesh (Vec ℝ 3)} {ts ts' : List (Vec ℝ 3 × Vec ℝ 3 × Vec ℝ 3)} (h : Reads m ts) (h' : Reads m ts') : ts = ts' := by
  unfold Reads at h h'
  generalize m.facets = fs at h h'
  induction h generalizing ts' with
  | nil => cases h'; rfl
  | cons hd _ ih =>
    cases h' with
    | cons hd' tl' =>
      obtain ⟨h0, h1, h2, e, e0, e1, e2⟩ := hd
      obtain ⟨g0, g1, g2, d, d0, d1, d2⟩ := hd'
      rw [e] at d
      obtain ⟨rfl, rfl, rfl⟩ : h0 = g0 ∧ h1 = g1 ∧ h2 = g2 := by simpa using Except.ok.inj d
      rw [e0] at d0; rw [e1] at d1; rw [e2] at d2
      have := ih tl'
      subst this
      congr 1
      exact Prod.ext (Except.ok.inj d0) (Prod.ext (Except.ok.inj d1) (Except.ok.inj d2))

section
variable [BEq (HMat ℝ)] [LawfulBEq (HMat ℝ)] [BEq (Vec ℝ 3)] [LawfulBEq (Vec ℝ 3)]

theorem volume_build (dbg : Bool) (M w : Nat) (trafo : HMat ℝ) (A : Matrix (Fin 3) (Fin 3) ℝ) (b : Vec ℝ 3) (hA : A.det = 1)
    (htr : ∀ p, transformVec p trafo = affine A b p) (points : List (Vec ℝ 3)) (idx : List Nat) (hM : idx.length < M)
    (m : HalfedgeMesh (Vec ℝ 3)) (hm : buildTriangleHalfedgeMesh dbg M w trafo points idx = .ok m)
    (hc : ClosedOriented (triples idx)) (c0 : Vec ℝ 3) (V : ℝ)
    (h : ((triples idx).map fun t => side (mapTriangle (fun i => points.getD i 0) (reversed t)) c0).sum = -(6 * V)) :
    ∃ ts, Reads m ts ∧ ∀ c, volume c ts = V := by
  rcases build_cases dbg M w trafo points idx (by omega) (by rintro rfl; exact build_debug_pre hm) with ⟨hi, he⟩ | ⟨_, he⟩
  swap
  · rw [he] at hm; simp at hm
  rw [he] at hm
  have hl := bufferTriangles_length trafo points idx
  have hM' : 3 * (bufferTriangles trafo points idx).length < M := by omega
  obtain ⟨m', hm', hb⟩ := C48_build_succeeds dbg M w (bufferTriangles trafo points idx) hM'
  rw [hm, Except.ok.injEq] at hm'
  subst hm'
  refine ⟨_, reads_of_built dbg M _ hM' m hb, fun c => ?_⟩
  have e : bufferTriangles trafo points idx =
      ((triples idx).map reversed).map (mapTriangle fun i => transformVec (points.getD i 0) trafo) := by
    rw [bufferTriangles, List.map_map]; rfl
  rw [e, volume_base hc.reversed _ c (affine A b c0), volume_eq, List.map_map, List.map_map]
  have e2 : ((fun t => side t (affine A b c0)) ∘ mapTriangle fun i => transformVec (points.getD i 0) trafo) ∘ reversed =
      fun t => side (mapTriangle (fun i => points.getD i 0) (reversed t)) c0 := by
    funext t
    show side (mapTriangle (fun i => transformVec (points.getD i 0) trafo) (reversed t)) (affine A b c0) = _
    have et : mapTriangle (fun i => transformVec (points.getD i 0) trafo) (reversed t) =
        mapTriangle (affine A b) (mapTriangle (fun i => points.getD i 0) (reversed t)) := by
      simp only [mapTriangle, htr]
    rw [et, side_affine, hA, one_mul]
  rw [e2, h]
  ring
end

/-! ### Sines -/

theorem sin_lower {x : ℝ} (h0 : 0 ≤ x) (h1 : x ≤ π) : x - x ^ 3 / 2 ≤ sin x := by
  by_cases hx : x < π / 2
  · have hc := Real.one_sub_sq_div_two_le_cos (x := x)
    have hcp : 0 < cos x := Real.cos_pos_of_mem_Ioo ⟨by linarith [Real.pi_pos], hx⟩
    have ht := Real.le_tan h0 hx
    rw [Real.tan_eq_sin_div_cos, le_div_iff₀ hcp] at ht
    nlinarith
  · push Not at hx
    have h3 := Real.pi_gt_three
    have hs := Real.sin_nonneg_of_nonneg_of_le_pi h0 h1
    have : 2 ≤ x ^ 2 := by nlinarith
    nlinarith

/-- The area of a regular polygon with `n` corners against the circle. -/
theorem polygon_bounds {n : ℕ} (hn : 3 ≤ n) : n * sin (2 * (π / n)) ≤ 2 * π ∧ 2 * π - 4 * π ^ 3 / n ^ 2 ≤ n * sin (2 * (π / n)) ∧
    0 < n * sin (2 * (π / n)) := by
  have h3 : (3 : ℝ) ≤ n := by exact_mod_cast hn
  have hpi := Real.pi_pos
  have hx0 : 0 < 2 * (π / n) := by positivity
  have hx1 : 2 * (π / n) < π := by rw [← mul_div_assoc, div_lt_iff₀ (by positivity)]; nlinarith
  have e : (n : ℝ) * (2 * (π / n)) = 2 * π := by field_simp
  refine ⟨?_, ?_, mul_pos (by linarith) (Real.sin_pos_of_pos_of_lt_pi hx0 hx1)⟩
  · have := mul_le_mul_of_nonneg_left (Real.sin_le hx0.le) (show (0 : ℝ) ≤ n by linarith)
    linarith
  · have := mul_le_mul_of_nonneg_left (sin_lower hx0.le hx1.le) (show (0 : ℝ) ≤ n by linarith)
    have e2 : (n : ℝ) * (2 * (π / n) - (2 * (π / n)) ^ 3 / 2) = 2 * π - 4 * π ^ 3 / n ^ 2 := by field_simp; ring
    linarith
end Verif
