import Verif.Props.Inscribed
import Verif.Props.Outward
import Verif.Proofs.FloatVec

set_option linter.unusedSectionVars false

/-
C134: the normals of a sphere mesh compared with the normals of the sphere.
-/
namespace Verif
open Spec Matrix Real

/-- Facet normals and vertex normals computed from the mesh have length one, and the planes they define at the points of the facet (at the
vertex) have distance at least `ρ` from `c`, which lies behind them. -/
def NormalsAround [BEq (Vec ℝ 3)] (m : HalfedgeMesh (Vec ℝ 3)) (c : Vec ℝ 3) (ρ : ℝ) : Prop :=
  (∀ f ∈ m.facets, ∃ n h0 h1 h2 p q s, calcFacetNormal m f = .ok n ∧ Spec.norm n = 1 ∧ calcHalfedges m f = .ok [h0, h1, h2] ∧
    m.heVector h0 = .ok p ∧ m.heVector h1 = .ok q ∧ m.heVector h2 = .ok s ∧ ∀ x ∈ flatTriangle p q s, ρ ≤ n ⬝ᵥ (x - c)) ∧
  ∃ ns, calcVertexNormals m = .ok ns ∧ ns.length = m.points.length ∧
    ∀ i (hi : i < m.points.length), ∃ n, ns[i]? = some n ∧ Spec.norm n = 1 ∧ ρ ≤ n ⬝ᵥ (m.points[i] - c)

theorem dp_unit {n : Vec ℝ 3} (h : Spec.norm n = 1) : n ⬝ᵥ n = 1 := by
  have := norm_sq' n
  rw [h] at this
  simp only [dotProduct, ← sq]
  linarith

/-- A plane that has a ball behind it. -/
theorem plane_ball {n c p : Vec ℝ 3} {ρ : ℝ} (hn : Spec.norm n = 1) (hρ : 0 < ρ) (h : ∀ x, Spec.dist x c < ρ → n ⬝ᵥ (x - p) < 0) :
    ρ ≤ n ⬝ᵥ (p - c) := by
  have hnn := dp_unit hn
  by_contra hlt
  push Not at hlt
  set s := max 0 (n ⬝ᵥ (p - c)) with hs
  have hs0 : 0 ≤ s := le_max_left _ _
  have hsρ : s < ρ := max_lt hρ hlt
  have := h (c + s • n) (by
    rw [sdist_sq, add_sub_cancel_left, smul_dotProduct, dotProduct_smul, hnn]
    simp only [smul_eq_mul, mul_one]
    rw [Real.sqrt_mul_self hs0]; exact hsρ)
  rw [show c + s • n - p = s • n - (p - c) by abel, dotProduct_sub, dotProduct_smul, hnn] at this
  have h2 : n ⬝ᵥ (p - c) ≤ s := le_max_right _ _
  simp only [smul_eq_mul, mul_one] at this
  linarith

section
variable [BEq (Vec ℝ 3)] [LawfulBEq (Vec ℝ 3)]

theorem satisfy_triangles (dbg : Bool) (M : Nat) (ts : List (Vec ℝ 3 × Vec ℝ 3 × Vec ℝ 3)) (hM : 3 * ts.length < M)
    (m : HalfedgeMesh (Vec ℝ 3)) (hb : BuiltFrom dbg M ts m) (P : Vec ℝ 3 → Vec ℝ 3 → Vec ℝ 3 → Prop) (hP : FacetsSatisfy m P) :
    ∀ t ∈ ts, P t.1 t.2.1 t.2.2 := by
  intro t ht
  obtain ⟨k, hk, rfl⟩ := List.mem_iff_getElem.1 ht
  obtain ⟨f, hf, h0, h1, h2, e, e0, e1, e2⟩ := facet_corners_get dbg M ts hM m hb k hk
  obtain ⟨g0, g1, g2, p, q, r, d, d0, d1, d2, h⟩ := hP f (List.mem_of_getElem? (vecGet_eq_ok.1 hf))
  rw [e] at d
  obtain ⟨rfl, rfl, rfl⟩ : h0 = g0 ∧ h1 = g1 ∧ h2 = g2 := by simpa using Except.ok.inj d
  rw [e0] at d0; rw [e1] at d1; rw [e2] at d2
  obtain rfl := Except.ok.inj d0
  obtain rfl := Except.ok.inj d1
  obtain rfl := Except.ok.inj d2
  exact h

/-- **C134** If the open ball of radius `ρ` around `c` lies strictly behind all facets of a mesh, the tangent planes its facet normals and
vertex normals define keep the distance `ρ` from `c`. -/
theorem C134_normals (dbg : Bool) (M : Nat) (ts : List (Vec ℝ 3 × Vec ℝ 3 × Vec ℝ 3)) (hM : 3 * ts.length < M)
    (m : HalfedgeMesh (Vec ℝ 3)) (hb : BuiltFrom dbg M ts m) (c : Vec ℝ 3) {ρ : ℝ} (hρ : 0 < ρ)
    (ho : FacetsSatisfy m fun p q s => ∀ x, Spec.dist x c < ρ → side (p, q, s) x < 0) : NormalsAround m c ρ := by
  have hts : ∀ t ∈ ts, ∀ x, Spec.dist x c < ρ → side t x < 0 := satisfy_triangles dbg M ts hM m hb _ ho
  have hnd : ∀ t ∈ ts, NonDegenerate t := fun t ht => nonDegenerate_of_side (hts t ht c (by
    rw [sdist_sq, sub_self, zero_dotProduct, Real.sqrt_zero]; exact hρ))
  have hfar : ∀ t ∈ ts, ∀ n, IsNormal t n → ∀ a ∈ [t.1, t.2.1, t.2.2], ρ ≤ n ⬝ᵥ (a - c) := by
    intro t ht n hN a ha
    obtain ⟨κ, hκ, hs⟩ := isNormal_side (hnd t ht) hN
    refine plane_ball hN.1 hρ fun x hx => ?_
    rw [hs _ _ ha]
    exact mul_neg_of_pos_of_neg hκ (hts t ht x hx)
  refine ⟨?_, ?_⟩
  · intro f hf
    obtain ⟨k, hk⟩ := List.mem_iff_getElem?.1 hf
    have hfl : m.facets.length = ts.length := by
      obtain ⟨o, rfl⟩ := hb.eq hM
      simp [meshOfO, facetsOf, weld_length, corners_length]
    have hkt : k < ts.length := by rw [← hfl]; exact (List.getElem?_eq_some_iff.1 hk).1
    obtain ⟨f', hf', h0, h1, h2, e, e0, e1, e2⟩ := facet_corners_get dbg M ts hM m hb k hkt
    obtain ⟨f'', n, hf'', hn, hN⟩ := C51_facet_normal dbg M ts hM m hb k hkt (hnd _ (List.getElem_mem _))
    rw [vecGet_of_getElem? hk] at hf' hf''
    obtain rfl := Except.ok.inj hf'
    obtain rfl := Except.ok.inj hf''
    have hf := hfar _ (List.getElem_mem hkt) n hN
    refine ⟨n, h0, h1, h2, _, _, _, hn, hN.1, e, e0, e1, e2, ?_⟩
    rintro x ⟨a, b, d, ha, hb', hd, h1, rfl⟩
    have e : a • ts[k].1 + b • ts[k].2.1 + d • ts[k].2.2 - c = a • (ts[k].1 - c) + b • (ts[k].2.1 - c) + d • (ts[k].2.2 - c) := by
      have e : c = (a + b + d) • c := by rw [h1, one_smul]
      nth_rw 1 [e]
      module
    rw [e, dotProduct_add, dotProduct_add, dotProduct_smul, dotProduct_smul, dotProduct_smul]
    simp only [smul_eq_mul]
    have := mul_le_mul_of_nonneg_left (hf _ (by simp : ts[k].1 ∈ _)) ha
    have := mul_le_mul_of_nonneg_left (hf _ (by simp : ts[k].2.1 ∈ _)) hb'
    have := mul_le_mul_of_nonneg_left (hf _ (by simp : ts[k].2.2 ∈ _)) hd
    have e : ρ = a * ρ + b * ρ + d * ρ := by rw [← add_mul, ← add_mul, h1, one_mul]
    linarith
  · obtain ⟨ns, h1, h2, h3⟩ := C52_vertex_normals dbg M ts hM m hb hnd
    refine ⟨ns, h1, h2, fun i hi => ?_⟩
    obtain ⟨S, hS, hv⟩ := h3 i hi
    have hneg : ∀ n ∈ S, Spec.norm n = 1 ∧ ρ ≤ n ⬝ᵥ (m.points[i] - c) := by
      intro n hn
      obtain ⟨t, ht, hi', hN⟩ := (hS n).1 hn
      exact ⟨hN.1, hfar t ht n hN _ hi'⟩
    have hne : S.Nonempty := by
      have hp : m.points[i] ∈ corners ts := by
        rw [← List.mem_eraseDups, ← (C43_vertices dbg M ts hM m hb).1]
        exact List.getElem_mem hi
      obtain ⟨t, ht, hc⟩ := List.mem_flatMap.1 hp
      exact ⟨_, (hS _).2 ⟨t, ht, hc, (isNormal_iff (hnd t ht) _).2 rfl⟩⟩
    have hsum : (S.card : ℝ) * ρ ≤ (∑ n ∈ S, n) ⬝ᵥ (m.points[i] - c) := by
      rw [sum_dotProduct, ← nsmul_eq_mul]
      exact Finset.card_nsmul_le_sum _ _ _ fun n hn => (hneg n hn).2
    have hcard : 0 < (S.card : ℝ) := by exact_mod_cast hne.card_pos
    obtain ⟨n, hn, hu, κ, hκ, he⟩ := hv (by
      intro h; rw [h, zero_dotProduct] at hsum; nlinarith)
    have hκS : κ ≤ S.card := by
      have e : κ = (∑ n ∈ S, n) ⬝ᵥ n := by rw [he, smul_dotProduct, dp_unit hu, smul_eq_mul, mul_one]
      rw [e, sum_dotProduct]
      calc ∑ x ∈ S, x ⬝ᵥ n ≤ S.card • (1 : ℝ) := Finset.sum_le_card_nsmul _ _ _ fun x hx => by
            have := dp_le (v := x) (w := n) zero_le_one zero_le_one (by rw [dp_unit (hneg x hx).1]; norm_num) (by rw [dp_unit hu]; norm_num)
            linarith
        _ = S.card := by simp
    rw [he, smul_dotProduct, smul_eq_mul] at hsum
    refine ⟨n, hn, hu, ?_⟩
    by_contra h
    push Not at h
    nlinarith
end

/-- The distance between a unit vector and the direction of `w`. -/
theorem unit_near {n w : Vec ℝ 3} {q : ℝ} (hn : Spec.norm n = 1) (hw : 0 < Spec.norm w) (h : q * Spec.norm w ≤ n ⬝ᵥ w) :
    Spec.dist n ((Spec.norm w)⁻¹ • w) ≤ √(2 * (1 - q)) := by
  have hww : w ⬝ᵥ w = Spec.norm w ^ 2 := by rw [norm_sq']; simp only [dotProduct, ← sq]
  rw [sdist_sq]
  apply Real.sqrt_le_sqrt
  have e : (n - (Spec.norm w)⁻¹ • w) ⬝ᵥ (n - (Spec.norm w)⁻¹ • w) = 2 - 2 * ((Spec.norm w)⁻¹ * (n ⬝ᵥ w)) := by
    rw [sub_dotProduct, dotProduct_sub, dotProduct_sub, dp_unit hn, smul_dotProduct, smul_dotProduct, dotProduct_smul, dotProduct_smul, hww,
      dotProduct_comm w n]
    simp only [smul_eq_mul]
    field_simp
    ring
  rw [e]
  have : q ≤ (Spec.norm w)⁻¹ * (n ⬝ᵥ w) := by
    rw [inv_mul_eq_div, le_div_iff₀ hw]; exact h
  linarith

theorem one_sub_cos_cos (a b : ℝ) : 2 * (1 - cos a * cos b) ≤ a ^ 2 + b ^ 2 := by
  have h1 := Real.one_sub_sq_div_two_le_cos (x := a)
  have h2 := Real.one_sub_sq_div_two_le_cos (x := b)
  have h3 := Real.cos_le_one a
  have h4 : cos a * (1 - cos b) ≤ 1 - cos b := by nlinarith [Real.cos_le_one b]
  nlinarith

section
variable [BEq (HMat ℝ)] [LawfulBEq (HMat ℝ)] [BEq (Vec ℝ 3)] [LawfulBEq (Vec ℝ 3)]

/-- **C134** (spheres) Facet and vertex normals have length one. A facet normal differs from the direction of each point of its facet as seen
from the centre, and a vertex normal from the direction of its vertex, by at most `√((π/n)² + (π/(2p))²)`. -/
theorem C134_sphere (dbg : Bool) (M w : Nat) (b : SphereBuilder ℝ) (hp : 2 ≤ b.polarCount) (hn : 3 ≤ b.azimuthCount)
    (hM : 6 * b.azimuthCount * (b.polarCount - 1) < M) (hr : 0 < b.theSphere.radius) :
    ∃ m b', b.build dbg M w = .ok (m, b') ∧
      (∀ f ∈ m.facets, ∃ ν h0 h1 h2 p q s, calcFacetNormal m f = .ok ν ∧ Spec.norm ν = 1 ∧ calcHalfedges m f = .ok [h0, h1, h2] ∧
        m.heVector h0 = .ok p ∧ m.heVector h1 = .ok q ∧ m.heVector h2 = .ok s ∧ ∀ x ∈ flatTriangle p q s,
        Spec.dist ν ((Spec.norm (x - b.theSphere.origin))⁻¹ • (x - b.theSphere.origin)) ≤
          √((π / b.azimuthCount) ^ 2 + (π / (2 * b.polarCount)) ^ 2)) ∧
      ∃ ns, calcVertexNormals m = .ok ns ∧ ns.length = m.points.length ∧ ∀ i (hi : i < m.points.length), ∃ ν, ns[i]? = some ν ∧
        Spec.norm ν = 1 ∧ Spec.dist ν (b.theSphere.radius⁻¹ • (m.points[i] - b.theSphere.origin)) ≤
          √((π / b.azimuthCount) ^ 2 + (π / (2 * b.polarCount)) ^ 2) := by
  obtain ⟨m, b', hm, ho⟩ := C88_sphere dbg M w b hp hn hM hr
  refine ⟨m, b', hm, ?_⟩
  obtain ⟨ts, hts, hb⟩ := built_of_build dbg M w _ _ _ (by rw [sphIdx_length hp (by omega)]; exact hM) m (sphere_build_inner dbg M w b hp hn hM hm)
  have hρ := innerRadius_pos hr hp hn
  obtain ⟨hF, ns, h1, h2, h3⟩ := C134_normals dbg M ts hts m hb b.theSphere.origin hρ (fun f hf => by
    obtain ⟨h0, h1, h2, p, q, s, d, d0, d1, d2, _, h⟩ := ho f hf
    exact ⟨h0, h1, h2, p, q, s, d, d0, d1, d2, h⟩)
  have hcos := one_sub_cos_cos (π / b.azimuthCount) (π / (2 * b.polarCount))
  have hq : 0 ≤ cos (π / b.azimuthCount) * cos (π / (2 * b.polarCount)) := by
    by_contra h
    push Not at h
    unfold innerRadius at hρ
    rw [mul_assoc] at hρ
    nlinarith
  have hnd : ∀ x : Vec ℝ 3, Spec.norm (x - b.theSphere.origin) = Spec.dist x b.theSphere.origin := fun x => rfl
  refine ⟨fun f hf => ?_, ns, h1, h2, fun i hi => ?_⟩
  · obtain ⟨ν, h0, h1, h2, p, q, s, a1, a2, a3, a4, a5, a6, a7⟩ := hF f hf
    obtain ⟨g0, g1, g2, p', q', s', d, d0, d1, d2, hsh, h⟩ := ho f hf
    rw [a3] at d
    obtain ⟨rfl, rfl, rfl⟩ : h0 = g0 ∧ h1 = g1 ∧ h2 = g2 := by simpa using Except.ok.inj d
    rw [a4] at d0; rw [a5] at d1; rw [a6] at d2
    obtain rfl := Except.ok.inj d0
    obtain rfl := Except.ok.inj d1
    obtain rfl := Except.ok.inj d2
    refine ⟨ν, h0, h1, h2, p, q, s, a1, a2, a3, a4, a5, a6, fun x hx => ?_⟩
    obtain ⟨k1, k2⟩ := hsh hx
    have hpos : 0 < Spec.norm (x - b.theSphere.origin) := lt_of_lt_of_le hρ k1
    refine (unit_near a2 hpos (le_trans ?_ (a7 x hx))).trans (Real.sqrt_le_sqrt hcos)
    unfold innerRadius
    rw [hnd]
    have := mul_le_mul_of_nonneg_right k2 hq
    linarith
  · obtain ⟨ν, e1, e2, e3⟩ := h3 i hi
    refine ⟨ν, e1, e2, ?_⟩
    have hd := C60_sphere dbg M w b hp (by omega) hM m b' hm _ (List.getElem_mem hi)
    rw [abs_of_pos hr, ← hnd] at hd
    have := unit_near (q := cos (π / b.azimuthCount) * cos (π / (2 * b.polarCount))) e2 (by rw [hd]; exact hr) (by
      rw [hd]
      unfold innerRadius at e3
      linarith)
    rw [hd] at this
    exact this.trans (Real.sqrt_le_sqrt hcos)
end

section Examples
open Classical

example : ∃ m b', exSphere.build true 65536 16 = .ok (m, b') ∧ NormalsAround m exSphere.theSphere.origin
    (exSphere.theSphere.radius * cos (π / exSphere.azimuthCount) * cos (π / (2 * exSphere.polarCount))) := by
  have hr : 0 < exSphere.theSphere.radius := by simp [exSphere, SphereBuilder.theSphere]
  obtain ⟨m, b', hm, ho⟩ := C88_sphere true 65536 16 exSphere (by decide) (by decide) (by decide) hr
  obtain ⟨ts, hts, hb⟩ := built_of_build true 65536 16 _ _ _ (by rw [sphIdx_length (by decide) (by decide)]; decide) m
    (sphere_build_inner true 65536 16 exSphere (by decide) (by decide) (by decide) hm)
  exact ⟨m, b', hm, C134_normals true 65536 ts hts m hb _ (innerRadius_pos hr (by decide) (by decide)) (fun f hf => by
    obtain ⟨h0, h1, h2, p, q, s, d, d0, d1, d2, _, h⟩ := ho f hf
    exact ⟨h0, h1, h2, p, q, s, d, d0, d1, d2, h⟩)⟩

example := C134_sphere true 65536 16 exSphere (by decide) (by decide) (by decide) (by simp [exSphere, SphereBuilder.theSphere])
end Examples
end Verif
