import Verif.Props.Convex
import Verif.Props.MeshNormals

set_option linter.unusedSectionVars false

/-
C83: the normals of outward oriented convex meshes point outward.
-/
namespace Verif
open Spec Matrix Real

/-- The facet normals and the vertex normals computed from the mesh are outward normals of the convex body around `c`: length one, away from
`c`, and the plane through the facet (the vertex) perpendicular to the normal has all vertices behind it. -/
def OutwardNormals [BEq (Vec ℝ 3)] (m : HalfedgeMesh (Vec ℝ 3)) (c : Vec ℝ 3) : Prop :=
  (∀ f ∈ m.facets, ∃ n h0 h1 h2 p, calcFacetNormal m f = .ok n ∧ Spec.norm n = 1 ∧ calcHalfedges m f = .ok [h0, h1, h2] ∧
    m.heVector h0 = .ok p ∧ n ⬝ᵥ (c - p) < 0 ∧ ∀ v ∈ m.points, n ⬝ᵥ (v - p) ≤ 0) ∧
  ∃ ns, calcVertexNormals m = .ok ns ∧ ns.length = m.points.length ∧
    ∀ i (hi : i < m.points.length), ∃ n, ns[i]? = some n ∧ Spec.norm n = 1 ∧ n ⬝ᵥ (c - m.points[i]) < 0 ∧
      ∀ v ∈ m.points, n ⬝ᵥ (v - m.points[i]) ≤ 0

theorem side_cross (p q r v : Vec ℝ 3) : side (p, q, r) v = cross (vsub q p) (vsub r q) ⬝ᵥ (v - p) := by
  rw [side_eq]
  simp [cross, vsub, dotProduct, Fin.sum_univ_three]
  ring

theorem nonDegenerate_of_side {t : Vec ℝ 3 × Vec ℝ 3 × Vec ℝ 3} {c : Vec ℝ 3} (h : side t c < 0) : NonDegenerate t := by
  rw [nonDegenerate_iff]
  intro h0
  rw [← eta3 t, side_cross, h0, zero_dotProduct] at h
  exact lt_irrefl _ h

theorem isNormal_side {t : Vec ℝ 3 × Vec ℝ 3 × Vec ℝ 3} {n : Vec ℝ 3} (ht : NonDegenerate t) (hn : IsNormal t n) :
    ∃ κ : ℝ, 0 < κ ∧ ∀ v, ∀ a ∈ [t.1, t.2.1, t.2.2], n ⬝ᵥ (v - a) = κ * side t v := by
  obtain ⟨p, q, r⟩ := t
  have e := (isNormal_iff ht n).1 hn
  rw [nonDegenerate_iff] at ht
  refine ⟨(length (cross (vsub q p) (vsub r q)))⁻¹, inv_pos.2 (length_pos ht), ?_⟩
  intro v a ha
  have h1 : n ⬝ᵥ (v - p) = (length (cross (vsub q p) (vsub r q)))⁻¹ * side (p, q, r) v := by
    rw [e, normalOf, normalize_eq, smul_dotProduct, side_cross]; rfl
  obtain ⟨_, hq, hr, hp, _⟩ := hn
  dsimp only at hq hr hp
  rw [← h1]
  simp only [List.mem_cons, List.not_mem_nil, or_false] at ha
  simp only [dotProduct_sub] at hq hr hp ⊢
  rcases ha with rfl | rfl | rfl
  · rfl
  · linarith
  · linarith

section
variable [BEq (Vec ℝ 3)] [LawfulBEq (Vec ℝ 3)]

theorem outward_triangles (dbg : Bool) (M : Nat) (ts : List (Vec ℝ 3 × Vec ℝ 3 × Vec ℝ 3)) (hM : 3 * ts.length < M)
    (m : HalfedgeMesh (Vec ℝ 3)) (hb : BuiltFrom dbg M ts m) (c : Vec ℝ 3) (ho : OutwardMesh m c) :
    ∀ t ∈ ts, side t c < 0 ∧ ∀ v ∈ m.points, side t v ≤ 0 := by
  intro t ht
  obtain ⟨k, hk, rfl⟩ := List.mem_iff_getElem.1 ht
  obtain ⟨f, hf, h0, h1, h2, e, e0, e1, e2⟩ := facet_corners_get dbg M ts hM m hb k hk
  obtain ⟨g0, g1, g2, p, q, r, d, d0, d1, d2, h⟩ := ho f (List.mem_of_getElem? (vecGet_eq_ok.1 hf))
  rw [e] at d
  obtain ⟨rfl, rfl, rfl⟩ : h0 = g0 ∧ h1 = g1 ∧ h2 = g2 := by simpa using Except.ok.inj d
  rw [e0] at d0; rw [e1] at d1; rw [e2] at d2
  obtain rfl := Except.ok.inj d0
  obtain rfl := Except.ok.inj d1
  obtain rfl := Except.ok.inj d2
  exact h

/-- **C83** If all facets of a mesh have `c` strictly behind them and no vertex in front of them, its facet normals and its vertex normals are
outward normals; in particular no vertex normal is the quotient of the zero vector by its length. -/
theorem C83_normals (dbg : Bool) (M : Nat) (ts : List (Vec ℝ 3 × Vec ℝ 3 × Vec ℝ 3)) (hM : 3 * ts.length < M)
    (m : HalfedgeMesh (Vec ℝ 3)) (hb : BuiltFrom dbg M ts m) (c : Vec ℝ 3) (ho : OutwardMesh m c) : OutwardNormals m c := by
  have hts := outward_triangles dbg M ts hM m hb c ho
  have hnd : ∀ t ∈ ts, NonDegenerate t := fun t ht => nonDegenerate_of_side (hts t ht).1
  refine ⟨?_, ?_⟩
  · intro f hf
    obtain ⟨k, hk⟩ := List.mem_iff_getElem?.1 hf
    have hfl : m.facets.length = ts.length := by
      obtain ⟨o, rfl⟩ := hb.eq hM
      simp [meshOfO, facetsOf, weld_length, corners_length]
    have hkt : k < ts.length := by rw [← hfl]; exact (List.getElem?_eq_some_iff.1 hk).1
    obtain ⟨f', hf', h0, h1, h2, e, e0, e1, e2⟩ := facet_corners_get dbg M ts hM m hb k hkt
    obtain ⟨f'', n, hf'', hn, hN⟩ := C51_facet_normal dbg M ts hM m hb k hkt (hnd _ (List.getElem_mem _))
    rw [vecGet_of_getElem? hk] at hf' hf''
    obtain rfl := Except.ok.inj hf'
    obtain rfl := Except.ok.inj hf''
    obtain ⟨κ, hκ, hs⟩ := isNormal_side (hnd _ (List.getElem_mem _)) hN
    have ht := hts _ (List.getElem_mem hkt)
    refine ⟨n, h0, h1, h2, _, hn, hN.1, e, e0, ?_, ?_⟩
    · rw [hs _ _ (by simp)]; nlinarith [ht.1]
    · intro v hv
      rw [hs _ _ (by simp)]; nlinarith [ht.2 v hv]
  · obtain ⟨ns, h1, h2, h3⟩ := C52_vertex_normals dbg M ts hM m hb hnd
    refine ⟨ns, h1, h2, fun i hi => ?_⟩
    obtain ⟨S, hS, hv⟩ := h3 i hi
    have hneg : ∀ n ∈ S, n ⬝ᵥ (c - m.points[i]) < 0 ∧ ∀ v ∈ m.points, n ⬝ᵥ (v - m.points[i]) ≤ 0 := by
      intro n hn
      obtain ⟨t, ht, hi', hN⟩ := (hS n).1 hn
      obtain ⟨κ, hκ, hs⟩ := isNormal_side (hnd _ ht) hN
      have := hts t ht
      refine ⟨?_, fun v hv => ?_⟩
      · rw [hs _ _ hi']; nlinarith [this.1]
      · rw [hs _ _ hi']; nlinarith [this.2 v hv]
    have hne : S.Nonempty := by
      have hp : m.points[i] ∈ corners ts := by
        rw [← List.mem_eraseDups, ← (C43_vertices dbg M ts hM m hb).1]
        exact List.getElem_mem hi
      obtain ⟨t, ht, hc⟩ := List.mem_flatMap.1 hp
      exact ⟨_, (hS _).2 ⟨t, ht, hc, (isNormal_iff (hnd t ht) _).2 rfl⟩⟩
    have hsum : (∑ n ∈ S, n) ⬝ᵥ (c - m.points[i]) < 0 := by
      rw [sum_dotProduct]
      exact Finset.sum_neg (fun n hn => (hneg n hn).1) hne
    have hsum' : ∀ v ∈ m.points, (∑ n ∈ S, n) ⬝ᵥ (v - m.points[i]) ≤ 0 := by
      intro v hv
      rw [sum_dotProduct]
      exact Finset.sum_nonpos (fun n hn => (hneg n hn).2 v hv)
    obtain ⟨n, hn, hu, κ, hκ, he⟩ := hv (by intro h; rw [h, zero_dotProduct] at hsum; exact lt_irrefl _ hsum)
    rw [he] at hsum hsum'
    simp only [smul_dotProduct, smul_eq_mul] at hsum hsum'
    refine ⟨n, hn, hu, ?_, ?_⟩
    · by_contra h; push Not at h; nlinarith
    · intro v hv'
      have := hsum' v hv'
      by_contra h; push Not at h; nlinarith
end

section
variable [BEq (HMat ℝ)] [LawfulBEq (HMat ℝ)] [BEq (Vec ℝ 3)] [LawfulBEq (Vec ℝ 3)]

/-- **C83** (spheres) -/
theorem C83_sphere (dbg : Bool) (M w : Nat) (b : SphereBuilder ℝ) (hp : 2 ≤ b.polarCount) (hn : 3 ≤ b.azimuthCount)
    (hM : 6 * b.azimuthCount * (b.polarCount - 1) < M) (hr : 0 < b.theSphere.radius) :
    ∃ m b', b.build dbg M w = .ok (m, b') ∧ OutwardNormals m b.theSphere.origin := by
  obtain ⟨m, b', hm, ho⟩ := C81_sphere dbg M w b hp hn hM hr
  refine ⟨m, b', hm, ?_⟩
  obtain ⟨ts, hts, hb⟩ := built_of_build dbg M w _ _ _ (by rw [sphIdx_length hp (by omega)]; exact hM) m (sphere_build_inner dbg M w b hp hn hM hm)
  exact C83_normals dbg M ts hts m hb _ ho

/-- **C83** (cones) -/
theorem C83_cone [Tol ℝ] [LawfulTol ℝ] (dbg : Bool) (M w : Nat) (rotAlign : Vec ℝ 4 → Vec ℝ 4 → HMat ℝ) (cone : Cone ℝ) (n : Nat)
    (hn : 3 ≤ n) (hM : 6 * n + 1 < M) (hr : cone.radius ≠ 0) (hseg : cone.segment.source ≠ cone.segment.target)
    (hz : dbg = true → isZero cone.segment.length = false)
    (hrot : RotatesZTo (rotAlign (hvec4 0 0 1 1) (toHvec cone.segment.direction)) cone.segment.direction) :
    ∃ m, coneBuild dbg M w rotAlign (some cone) n = .ok (some m) ∧
      OutwardNormals m (fun i => (cone.segment.source i + cone.segment.target i) / 2) := by
  obtain ⟨m, hm, ho⟩ := C81_cone dbg M w rotAlign cone n hn hM hr hseg hz hrot
  refine ⟨m, hm, ?_⟩
  rw [coneBuild_eq dbg M w rotAlign cone n (by omega) hseg hz] at hm
  obtain ⟨ts, hts, hb⟩ := built_of_build dbg M w _ _ _ (by rw [coneIdx_length]; omega) m (of_map_some hm)
  exact C83_normals dbg M ts hts m hb _ ho

/-- **C83** (cylinders) -/
theorem C83_cylinder (dbg : Bool) (M w : Nat) (rotAlign : Vec ℝ 4 → Vec ℝ 4 → HMat ℝ) (cyl : Cylinder ℝ) (n : Nat)
    (hn : 3 ≤ n) (hM : 12 * n < M) (hr : cyl.radius ≠ 0) (hseg : cyl.segment.source ≠ cyl.segment.target)
    (hrot : RotatesZTo (rotAlign (hvec4 0 0 1 1) (toHvec cyl.segment.direction)) cyl.segment.direction) :
    ∃ m, cylinderBuild dbg M w rotAlign (some cyl) n = .ok (some m) ∧
      OutwardNormals m (fun i => (cyl.segment.source i + cyl.segment.target i) / 2) := by
  obtain ⟨m, hm, ho⟩ := C81_cylinder dbg M w rotAlign cyl n hn hM hr hseg hrot
  refine ⟨m, hm, ?_⟩
  rw [cylinderBuild_eq dbg M w rotAlign cyl n (by omega) (by omega)] at hm
  obtain ⟨ts, hts, hb⟩ := built_of_build dbg M w _ _ _ (by rw [cylIdx_length]; omega) m (of_map_some hm)
  exact C83_normals dbg M ts hts m hb _ ho

/-- **C83** (cuboids with right-handed sides) -/
theorem C83_cuboid (dbg : Bool) (M w : Nat) (b : CuboidBuilder ℝ) (hM : 36 < M) (hd : 0 < det (Matrix.of b.theCuboid.sides)) :
    ∃ m b', b.build dbg M w = .ok (m, b') ∧ OutwardNormals m (cuboidCenter b.theCuboid) := by
  obtain ⟨m, b', hm, ho⟩ := C82_cuboid_partial dbg M w b hM hd
  refine ⟨m, b', hm, ?_⟩
  have hM' : 3 * (cuboidTriangles b.theCuboid).length < M := by rw [cuboidTriangles_length]; omega
  obtain ⟨m', hm', hb, _, _, _, he⟩ := cuboid_build dbg M w b hM
  have : m' = m := by
    rw [hm] at he
    split at he
    · exact nomatch he
    · exact (Prod.mk.inj (Except.ok.inj he)).1.symm
  subst this
  exact C83_normals dbg M _ hM' m' hb _ ho
end

section Examples
attribute [local instance] realTol realTol_lawful
open Classical

example : ∃ m b', exSphere.build true 65536 16 = .ok (m, b') ∧ OutwardNormals m exSphere.theSphere.origin :=
  C83_sphere true 65536 16 exSphere (by decide) (by decide) (by decide) (by simp [exSphere, SphereBuilder.theSphere])

example : ∃ m, coneBuild true 256 8 rotAlignZ (some ⟨exSeg, 2⟩) 5 = .ok (some m) ∧
    OutwardNormals m (fun i => (exSeg.source i + exSeg.target i) / 2) :=
  C83_cone true 256 8 rotAlignZ ⟨exSeg, 2⟩ 5 (by decide) (by decide) (by norm_num) exSeg_ne (fun _ => exSeg_nonzero) (exSeg_rot _)

example : ∃ m, cylinderBuild true 256 8 rotAlignZ (some ⟨exSeg, 2⟩) 5 = .ok (some m) ∧
    OutwardNormals m (fun i => (exSeg.source i + exSeg.target i) / 2) :=
  C83_cylinder true 256 8 rotAlignZ ⟨exSeg, 2⟩ 5 (by decide) (by decide) (by norm_num) exSeg_ne (exSeg_rot _)

example : ∃ m b', exBoxR.build true 65536 16 = .ok (m, b') ∧ OutwardNormals m (cuboidCenter exBoxR.theCuboid) :=
  C83_cuboid true 65536 16 exBoxR (by decide) exBoxR_det
/-- `C83_normals` on the mesh of the sphere. -/
example : ∃ m b', exSphere.build true 65536 16 = .ok (m, b') ∧ OutwardNormals m exSphere.theSphere.origin := by
  obtain ⟨m, b', hm, ho⟩ := C81_sphere true 65536 16 exSphere (by decide) (by decide) (by decide) (by simp [exSphere, SphereBuilder.theSphere])
  obtain ⟨ts, hts, hb⟩ := built_of_build true 65536 16 _ _ _ (by rw [sphIdx_length (by decide) (by decide)]; decide) m
    (sphere_build_inner true 65536 16 exSphere (by decide) (by decide) (by decide) hm)
  exact ⟨m, b', hm, C83_normals true 65536 ts hts m hb _ ho⟩
end Examples
end Verif
