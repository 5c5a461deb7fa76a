import Verif.Props.AABB
import Verif.Props.RayBox
import Verif.Props.Inscribed

set_option linter.unusedSectionVars false

/-
C125: a bounding box of a mesh as a filter in front of a test against its facets.
-/
namespace Verif
open Spec

section
variable [Tol ℝ] [LawfulTol ℝ] [HasLimits ℝ]

/-- The points fit into the number type (`std::numeric_limits`). -/
def InLimits (pts : List (Vec ℝ 3)) : Prop := ∀ p ∈ pts, ∀ i, HasLimits.lowest ≤ p i ∧ p i ≤ HasLimits.maxVal

theorem heVector_mem_points {m : HalfedgeMesh (Vec ℝ 3)} {h : Halfedge} {p : Vec ℝ 3} (e : m.heVector h = .ok p) : p ∈ m.points := by
  unfold HalfedgeMesh.heVector at e
  obtain ⟨v, _, e⟩ := bind_ok e
  unfold HalfedgeMesh.vector vecGet at e
  split at e
  · rename_i a ha
    rw [Except.ok.injEq] at e
    exact e ▸ List.mem_of_getElem? ha
  · cases e

theorem makeAABB_tight {dbg : Bool} {pts : List (Vec ℝ 3)} (hne : pts ≠ []) (hlim : InLimits pts) {b : AABB ℝ 3}
    (hb : makeAABB dbg pts = .ok b) (i : Fin 3) :
    IsLeast {x | ∃ p ∈ pts, x = p i} (b.min i) ∧ IsGreatest {x | ∃ p ∈ pts, x = p i} (b.max i) := by
  obtain ⟨b', h1, h2⟩ := C11_make_aabb dbg pts hne hlim
  rw [hb] at h2
  split at h2
  · cases h2
  · rw [Except.ok.injEq] at h2
    exact h2 ▸ h1 i

/-- **C125** The box of the points of a mesh contains every point of every facet, not only the vertices, and no smaller
box does: on each of its six faces lies a vertex. -/
theorem C125_surface (dbg : Bool) (m : HalfedgeMesh (Vec ℝ 3)) (hne : m.points ≠ []) (hlim : InLimits m.points) (b : AABB ℝ 3)
    (hb : makeAABB dbg m.points = .ok b) :
    (∀ x ∈ meshSurface m, ∀ i, b.min i ≤ x i ∧ x i ≤ b.max i) ∧
    ∀ i, (∃ p ∈ m.points, p i = b.min i) ∧ ∃ p ∈ m.points, p i = b.max i := by
  have ht := makeAABB_tight hne hlim hb
  constructor
  · rintro x ⟨f, _, h0, h1, h2, p, q, r, _, e0, e1, e2, a, c, d, ha, hc, hd, hs, rfl⟩ i
    have key : ∀ v ∈ m.points, b.min i ≤ v i ∧ v i ≤ b.max i := fun v hv =>
      ⟨(ht i).1.2 ⟨v, hv, rfl⟩, (ht i).2.2 ⟨v, hv, rfl⟩⟩
    obtain ⟨p1, p2⟩ := key p (heVector_mem_points e0)
    obtain ⟨q1, q2⟩ := key q (heVector_mem_points e1)
    obtain ⟨r1, r2⟩ := key r (heVector_mem_points e2)
    simp only [Pi.add_apply, Pi.smul_apply, smul_eq_mul]
    obtain rfl : a = 1 - c - d := by linarith
    constructor <;> nlinarith
  · intro i
    obtain ⟨p, hp, e⟩ := (ht i).1.1
    obtain ⟨q, hq, e'⟩ := (ht i).2.1
    exact ⟨⟨p, hp, e.symm⟩, q, hq, e'.symm⟩

/-- **C125** (rays) If a ray hits the surface of a mesh, the ray/box test with the box of the mesh is true.  Missing:
directions with a component that is not zero but within the tolerance (`C125_ray_counterexample`). -/
theorem C125_ray_partial (dbg : Bool) (m : HalfedgeMesh (Vec ℝ 3)) (hne : m.points ≠ []) (hlim : InLimits m.points) (b : AABB ℝ 3)
    (hb : makeAABB dbg m.points = .ok b) (o d : Vec ℝ 3) (hu : ∑ i, d i ^ 2 = 1) (hc : ∀ i, d i = 0 ∨ Tol.eps < |d i|)
    (t : ℝ) (ht : 0 ≤ t) (hit : pointAt o d t ∈ meshSurface m) : isIntersectingRayBox ⟨o, d⟩ b = true := by
  have hs := (C125_surface dbg m hne hlim b hb).1 _ hit
  exact C17_no_false_negative o d b.min b.max hu hc (fun i => (hs i).1.trans (hs i).2) t ht
    (fun i => ⟨by rw [sub_zero]; exact (hs i).1, by rw [add_zero]; exact (hs i).2⟩)

/-- **C125** (boxes) If the surfaces of two meshes have a common point that lies by more than `eps` inside the box of one
of them, the test whether the boxes overlap is true. -/
theorem C125_boxes_partial (dbg : Bool) (m₁ m₂ : HalfedgeMesh (Vec ℝ 3)) (hne₁ : m₁.points ≠ []) (hne₂ : m₂.points ≠ [])
    (hlim₁ : InLimits m₁.points) (hlim₂ : InLimits m₂.points) (b₁ b₂ : AABB ℝ 3)
    (hb₁ : makeAABB dbg m₁.points = .ok b₁) (hb₂ : makeAABB dbg m₂.points = .ok b₂)
    (x : Vec ℝ 3) (h₁ : x ∈ meshSurface m₁) (h₂ : x ∈ meshSurface m₂)
    (hin : (∀ i, b₁.min i + Tol.eps < x i ∧ x i + Tol.eps < b₁.max i) ∨ ∀ i, b₂.min i + Tol.eps < x i ∧ x i + Tol.eps < b₂.max i) :
    aabbIsIntersecting b₁ b₂ = true := by
  have k₁ := (C125_surface dbg m₁ hne₁ hlim₁ b₁ hb₁).1 x h₁
  have k₂ := (C125_surface dbg m₂ hne₂ hlim₂ b₂ hb₂).1 x h₂
  unfold aabbIsIntersecting
  rw [forallFin_iff]
  intro i
  obtain ⟨a1, a2⟩ := k₁ i
  obtain ⟨c1, c2⟩ := k₂ i
  rw [isLessEq_eq, isGreaterEq_eq]
  have l1 : isLess (b₂.min i) (b₁.max i) = true := isLess_true (by
    rcases hin with h | h <;> have := h i <;> linarith)
  have l2 : isLess (b₁.min i) (b₂.max i) = true := isLess_true (by
    rcases hin with h | h <;> have := h i <;> linarith)
  rw [l1, l2]; rfl

/-- **C125 is false for boxes**: if all points of two meshes lie in one plane perpendicular to an axis, the test whether
their boxes overlap is false, wherever the meshes lie in this plane: even for a mesh and itself. -/
theorem C125_boxes_counterexample (m₁ m₂ : HalfedgeMesh (Vec ℝ 3)) (hne₁ : m₁.points ≠ []) (hne₂ : m₂.points ≠ [])
    (hlim₁ : InLimits m₁.points) (hlim₂ : InLimits m₂.points) (i : Fin 3) (z : ℝ) (h₁ : ∀ p ∈ m₁.points, p i = z)
    (h₂ : ∀ p ∈ m₂.points, p i = z) :
    ∃ b₁ b₂, makeAABB false m₁.points = .ok b₁ ∧ makeAABB false m₂.points = .ok b₂ ∧ aabbIsIntersecting b₁ b₂ = false := by
  obtain ⟨b₁, _, e₁⟩ := C11_make_aabb false m₁.points hne₁ hlim₁
  obtain ⟨b₂, _, e₂⟩ := C11_make_aabb false m₂.points hne₂ hlim₂
  rw [Bool.false_and, if_neg (by simp)] at e₁ e₂
  refine ⟨b₁, b₂, e₁, e₂, ?_⟩
  obtain ⟨p, hp, e⟩ := (makeAABB_tight hne₁ hlim₁ e₁ i).2.1
  obtain ⟨q, hq, e'⟩ := (makeAABB_tight hne₂ hlim₂ e₂ i).1.1
  unfold aabbIsIntersecting
  rw [forallFin_false_iff]
  refine ⟨i, ?_⟩
  rw [isLessEq_eq, e, e', h₁ p hp, h₂ q hq, not_isLess_of_le le_rfl]
  rfl

variable [BEq (Vec ℝ 3)] [LawfulBEq (Vec ℝ 3)]

theorem mem_surface_single (dbg : Bool) (M w : Nat) (p q r : Vec ℝ 3) (hM : 3 < M) :
    ∃ m, buildMesh dbg M w [(p, q, r)] = .ok m ∧ (∀ v, v ∈ m.points ↔ v = p ∨ v = q ∨ v = r) ∧
      ∀ x ∈ flatTriangle p q r, x ∈ meshSurface m := by
  obtain ⟨m, hm, hb⟩ := C48_build_succeeds dbg M w [(p, q, r)] (by simpa using hM)
  refine ⟨m, hm, ?_, ?_⟩
  · intro v
    obtain ⟨hpts, _⟩ := C43_vertices dbg M [(p, q, r)] (by simpa using hM) m hb
    rw [hpts]; simp [corners]
  · intro x hx
    have hr := reads_of_built dbg M [(p, q, r)] (by simpa using hM) m hb
    unfold Reads at hr
    cases hf : m.facets with
    | nil => rw [hf] at hr; cases hr
    | cons f l =>
      rw [hf] at hr
      cases hr with
      | cons h _ =>
        obtain ⟨h0, h1, h2, a, b, c, d⟩ := h
        exact ⟨f, by rw [hf]; simp, h0, h1, h2, p, q, r, a, b, c, d, hx⟩

/-- **C125 is false for rays** that are nearly parallel to a coordinate plane: for every tolerance some mesh is hit by a
ray although the ray/box test with the (valid) box of the mesh is false (tolerances
below 1/2, and points that fit into the number type). -/
theorem C125_ray_counterexample (he : (Tol.eps : ℝ) < 1 / 2) (dbg : Bool) (M w : Nat) (hM : 3 < M)
    (hlim : HasLimits.lowest + Tol.eps < (HasLimits.maxVal : ℝ)) (hlow : HasLimits.lowest ≤ (-1 : ℝ)) (hmax : 5 / Tol.eps * 2 + 6 ≤ (HasLimits.maxVal : ℝ)) :
    ∃ (ts : List (Vec ℝ 3 × Vec ℝ 3 × Vec ℝ 3)) (m : HalfedgeMesh (Vec ℝ 3)) (b : AABB ℝ 3) (o d : Vec ℝ 3) (t : ℝ),
      buildMesh dbg M w ts = .ok m ∧ makeAABB dbg m.points = .ok b ∧ b.isValid = true ∧ ∑ i, d i ^ 2 = 1 ∧ 0 ≤ t ∧
      pointAt o d t ∈ meshSurface m ∧ isIntersectingRayBox ⟨o, d⟩ b = false := by
  have hep := eps_pos (K := ℝ)
  set s : ℝ := Tol.eps / 2 with hs
  have hs0 : 0 < s := by positivity
  have hs1 : s < 1 / 4 := by linarith
  have hc2 : 0 ≤ 1 - s ^ 2 := by nlinarith
  set c : ℝ := Real.sqrt (1 - s ^ 2) with hc
  have hcsq : c ^ 2 = 1 - s ^ 2 := Real.sq_sqrt hc2
  have hc0 : 0 ≤ c := Real.sqrt_nonneg _
  have hc1 : c ≤ 1 := by
    by_contra h; nlinarith [sq_nonneg s]
  have hclow : 1 / 2 < c := by
    apply Real.lt_sqrt_of_sq_lt; nlinarith
  set t : ℝ := 5 / s with ht
  have hts : t * s = 5 := by rw [ht]; field_simp
  have ht1 : 20 < t := by by_contra h; nlinarith
  have htm : t = 5 / Tol.eps * 2 := by rw [ht, hs]; field_simp
  have hct : c * t ≤ t := by nlinarith
  have hct1 : 10 < c * t := by nlinarith
  set p : Vec ℝ 3 := vec3 (c * t - 1) 4 (-1) with hp
  set q : Vec ℝ 3 := vec3 (c * t + 1) 6 (-1) with hq
  set r : Vec ℝ 3 := vec3 (c * t) 5 1 with hr
  obtain ⟨m, hm, hmem, hsurf⟩ := mem_surface_single dbg M w p q r hM
  have hne : m.points ≠ [] := by
    intro h
    have := (hmem p).2 (Or.inl rfl)
    rw [h] at this; cases this
  have hlimm : InLimits m.points := by
    intro v hv i
    rcases (hmem v).1 hv with rfl | rfl | rfl <;> fin_cases i <;> simp [hp, hq, hr] <;> constructor <;> linarith
  obtain ⟨b, hbt, hbe⟩ := C11_make_aabb dbg m.points hne hlimm
  have bnd : ∀ i, b.min i ≤ p i ∧ b.min i ≤ q i ∧ b.min i ≤ r i ∧ p i ≤ b.max i ∧ q i ≤ b.max i ∧ r i ≤ b.max i := fun i =>
    ⟨(hbt i).1.2 ⟨p, (hmem p).2 (by simp), rfl⟩, (hbt i).1.2 ⟨q, (hmem q).2 (by simp), rfl⟩, (hbt i).1.2 ⟨r, (hmem r).2 (by simp), rfl⟩,
      (hbt i).2.2 ⟨p, (hmem p).2 (by simp), rfl⟩, (hbt i).2.2 ⟨q, (hmem q).2 (by simp), rfl⟩, (hbt i).2.2 ⟨r, (hmem r).2 (by simp), rfl⟩⟩
  have hval : b.isValid = true := by
    apply (C13_valid_partial b).2
    intro i
    have := bnd i
    fin_cases i <;> simp [hp, hq, hr] at this ⊢ <;> linarith
  rw [hval] at hbe
  simp only [Bool.not_true, Bool.and_false, Bool.false_eq_true, if_false] at hbe
  have hmin1 : (4 : ℝ) ≤ b.min 1 := by
    obtain ⟨v, hv, e⟩ := (hbt 1).1.1
    rw [e]
    rcases (hmem v).1 hv with rfl | rfl | rfl <;> norm_num [hp, hq, hr]
  refine ⟨_, m, b, 0, vec3 c s 0, t, hm, hbe, hval, ?_, by linarith, ?_, ?_⟩
  · simp [Fin.sum_univ_three, hcsq]
  · apply hsurf
    refine ⟨1 / 4, 1 / 4, 1 / 2, by norm_num, by norm_num, by norm_num, by norm_num, ?_⟩
    funext i
    fin_cases i <;> simp [pointAt, hp, hq, hr] <;> linarith
  · have z0 : isZero ((vec3 c s 0 : Vec ℝ 3) 0) = false := isZero_false (by simp; rw [abs_of_pos] <;> linarith)
    have z1 : isZero ((vec3 c s 0 : Vec ℝ 3) 1) = true := isZero_true (by simp; rw [abs_of_pos] <;> linarith)
    have hb' : b = ⟨b.min, b.max⟩ := rfl
    rw [hb']
    unfold isIntersectingRayBox
    rcases interval_cases 0 (vec3 c s 0) b.min b.max ⟨0, z0⟩ with ⟨h, _⟩ | ⟨_, _, _, h, _⟩
    · rw [h]
      simp only [Ext.isLessEq, isLessEq_eq]
      rw [isLess_true hlim]
      rfl
    · have := (h 1 z1).1
      rw [isLess_true (show (0 : Vec ℝ 3) 1 + Tol.eps < b.min 1 by simp; linarith)] at this
      cases this
end

section Examples
attribute [local instance] realTol realTol_lawful
open Classical

local instance : HasLimits ℝ := ⟨10 ^ 12, -10 ^ 12⟩

/-- A triangle in the plane `z = 3`, another one across it, and their meshes. -/
theorem exTriangles :
    ∃ m₁ m₂, buildMesh true 256 8 [(vec3 0 0 3, vec3 4 0 3, (vec3 0 4 3 : Vec ℝ 3))] = .ok m₁ ∧
      buildMesh true 256 8 [(vec3 0 0 0, vec3 2 0 6, (vec3 1 4 3 : Vec ℝ 3))] = .ok m₂ ∧
      m₁.points ≠ [] ∧ m₂.points ≠ [] ∧ InLimits m₁.points ∧ InLimits m₂.points ∧ (∀ p ∈ m₁.points, p 2 = 3) ∧
      (vec3 1 1 3 : Vec ℝ 3) ∈ meshSurface m₁ ∧ (vec3 1 1 3 : Vec ℝ 3) ∈ meshSurface m₂ ∧
      (vec3 0 0 0 : Vec ℝ 3) ∈ m₂.points ∧ (vec3 2 0 6 : Vec ℝ 3) ∈ m₂.points ∧ (vec3 1 4 3 : Vec ℝ 3) ∈ m₂.points := by
  obtain ⟨m₁, h1, p1, s1⟩ := mem_surface_single true 256 8 (vec3 0 0 3) (vec3 4 0 3) (vec3 0 4 3) (by decide)
  obtain ⟨m₂, h2, p2, s2⟩ := mem_surface_single true 256 8 (vec3 0 0 0) (vec3 2 0 6) (vec3 1 4 3) (by decide)
  refine ⟨m₁, m₂, h1, h2, ?_, ?_, ?_, ?_, ?_, s1 _ ?_, s2 _ ?_, (p2 _).2 (by simp), (p2 _).2 (by simp), (p2 _).2 (by simp)⟩
  · intro h; have := (p1 (vec3 0 0 3)).2 (by simp); rw [h] at this; cases this
  · intro h; have := (p2 (vec3 0 0 0)).2 (by simp); rw [h] at this; cases this
  · intro v hv i
    rcases (p1 v).1 hv with rfl | rfl | rfl <;> fin_cases i <;> simp [HasLimits.lowest, HasLimits.maxVal] <;> norm_num
  · intro v hv i
    rcases (p2 v).1 hv with rfl | rfl | rfl <;> fin_cases i <;> simp [HasLimits.lowest, HasLimits.maxVal] <;> norm_num
  · intro v hv
    rcases (p1 v).1 hv with rfl | rfl | rfl <;> rfl
  · refine ⟨1 / 2, 1 / 4, 1 / 4, by norm_num, by norm_num, by norm_num, by norm_num, ?_⟩
    funext i; fin_cases i <;> simp <;> norm_num
  · refine ⟨3 / 8, 3 / 8, 1 / 4, by norm_num, by norm_num, by norm_num, by norm_num, ?_⟩
    funext i; fin_cases i <;> simp <;> norm_num

/-- The box of the second triangle contains the point (1, 1, 3) of its surface; the ray along the z-axis that hits it
there passes the test, and the box overlaps the (flat) box of the first triangle.  The first triangle does not overlap
itself. -/
example : ∃ m₁ m₂ b₁ b₂, makeAABB false m₁.points = .ok b₁ ∧ makeAABB false m₂.points = .ok b₂ ∧
    (vec3 1 1 3 : Vec ℝ 3) ∈ meshSurface m₁ ∧ (vec3 1 1 3 : Vec ℝ 3) ∈ meshSurface m₂ ∧
    (b₂.min 0 ≤ 1 ∧ 1 ≤ b₂.max 0) ∧ isIntersectingRayBox ⟨vec3 1 1 (-5), vec3 0 0 1⟩ b₂ = true ∧
    aabbIsIntersecting b₁ b₂ = true ∧ aabbIsIntersecting b₁ b₁ = false := by
  obtain ⟨m₁, m₂, _, _, n1, n2, l1, l2, flat, s1, s2, v0, v1, v2⟩ := exTriangles
  obtain ⟨b₁, b₁', e₁, e₁', hf⟩ := C125_boxes_counterexample m₁ m₁ n1 n1 l1 l1 2 3 flat flat
  obtain ⟨b₂, _, e₂⟩ := C11_make_aabb false m₂.points n2 l2
  rw [Bool.false_and, if_neg (by simp)] at e₂
  rw [e₁, Except.ok.injEq] at e₁'
  subst e₁'
  have hin : ∀ i, b₂.min i + Tol.eps < (vec3 1 1 3 : Vec ℝ 3) i ∧ (vec3 1 1 3 : Vec ℝ 3) i + Tol.eps < b₂.max i := by
    have hb := fun i => makeAABB_tight n2 l2 e₂ i
    intro i
    have a0 := (hb i).1.2 ⟨_, v0, rfl⟩
    have a1 := (hb i).1.2 ⟨_, v1, rfl⟩
    have c1 := (hb i).2.2 ⟨_, v1, rfl⟩
    have c2 := (hb i).2.2 ⟨_, v2, rfl⟩
    have he : (Tol.eps : ℝ) < 1 / 2 := by norm_num [Tol.eps, realTol]
    fin_cases i <;> simp at a0 a1 c1 c2 ⊢ <;> constructor <;> linarith
  refine ⟨m₁, m₂, b₁, b₂, e₁, e₂, s1, s2, by simpa using (C125_surface false m₂ n2 l2 b₂ e₂).1 _ s2 0, ?_, ?_, hf⟩
  · refine C125_ray_partial false m₂ n2 l2 b₂ e₂ _ _ (by simp [Fin.sum_univ_three]) ?_ 8 (by norm_num) ?_
    · intro i
      fin_cases i
      · left; rfl
      · left; rfl
      · right; simp [Tol.eps]; norm_num
    · convert s2 using 1
      funext i; fin_cases i <;> simp [pointAt] <;> norm_num
  · exact C125_boxes_partial false m₁ m₂ n1 n2 l1 l2 b₁ b₂ e₁ e₂ _ s1 s2 (Or.inr hin)

example : ∃ (ts : List (Vec ℝ 3 × Vec ℝ 3 × Vec ℝ 3)) (m : HalfedgeMesh (Vec ℝ 3)) (b : AABB ℝ 3) (o d : Vec ℝ 3) (t : ℝ),
    buildMesh true 256 8 ts = .ok m ∧ makeAABB true m.points = .ok b ∧ b.isValid = true ∧ ∑ i, d i ^ 2 = 1 ∧ 0 ≤ t ∧
    pointAt o d t ∈ meshSurface m ∧ isIntersectingRayBox ⟨o, d⟩ b = false :=
  C125_ray_counterexample (by norm_num [Tol.eps, realTol]) true 256 8 (by decide)
    (by norm_num [HasLimits.lowest, HasLimits.maxVal, Tol.eps, realTol]) (by norm_num [HasLimits.lowest])
    (by norm_num [HasLimits.maxVal, Tol.eps, realTol])
end Examples
end Verif
