import Verif.Model.Facade
import Verif.Props.SphereMesh
import Verif.Props.Cylinder
import Verif.Props.CuboidMesh

set_option linter.unusedSectionVars false

/-
C124: building a mesh and moving it, in either order.
-/
namespace Verif
open Spec Matrix Real

/-- The mesh with every point moved by `f` and everything else as it was. -/
def movedMesh {V : Type} (f : V → V) (m : HalfedgeMesh V) : HalfedgeMesh V := { m with points := m.points.map f }

section
variable {V W : Type} [BEq V] [LawfulBEq V] [BEq W] [LawfulBEq W]

theorem beq_of_inj {f : V → W} (hf : Function.Injective f) (a b : V) : (f a == f b) = (a == b) := by
  rw [Bool.eq_iff_iff, beq_iff_eq, beq_iff_eq]
  exact hf.eq_iff

theorem weld_map {f : V → W} (hf : Function.Injective f) (cs : List V) :
    weld (cs.map f) = ((weld cs).1.map f, (weld cs).2) := by
  induction cs using List.reverseRecOn with
  | nil => rfl
  | append_singleton cs c ih =>
    rw [List.map_append, weld_append, weld_append, ih]
    simp only [List.map_cons, List.map_nil, List.foldl_cons, List.foldl_nil]
    unfold weldStep
    have : List.findIdx? (· == f c) ((weld cs).1.map f) = (weld cs).1.findIdx? (· == c) := by
      rw [List.findIdx?_map]
      congr 1
      funext x
      exact beq_of_inj hf x c
    dsimp only
    rw [this]
    cases (weld cs).1.findIdx? (· == c) <;> simp
end

section
variable [BEq (Vec ℝ 3)] [LawfulBEq (Vec ℝ 3)]

theorem firstSame_map {f : Vec ℝ 3 → Vec ℝ 3} (hf : Function.Injective f) (ts : List (Vec ℝ 3 × Vec ℝ 3 × Vec ℝ 3)) (k : Nat) :
    firstSame (ts.map (mapTriangle f)) k = firstSame ts k := by
  unfold firstSame
  rw [directedEdges_map, List.findIdx_map]
  congr 1
  funext e
  simp only [Function.comp_def, List.getElem?_map]
  rw [show some (Prod.map f f e) = (some e).map (Prod.map f f) from rfl]
  rw [Bool.eq_iff_iff, beq_iff_eq, beq_iff_eq]
  exact (Option.map_injective (hf.prodMap hf)).eq_iff

theorem oppFinal_map {f : Vec ℝ 3 → Vec ℝ 3} (hf : Function.Injective f) (ts : List (Vec ℝ 3 × Vec ℝ 3 × Vec ℝ 3)) (o : Nat → Nat) :
    oppFinal (ts.map (mapTriangle f)) o = oppFinal ts o := by
  unfold oppFinal
  rw [List.length_map]
  congr 1
  funext o k
  unfold oppStep
  rw [firstSame_map hf]

/-- **C124** Building the mesh of moved triangles gives the moved mesh, for every map that keeps different points
different: the vertices, half-edges, facets and opposite links are the same and the points are moved. -/
theorem C124_commute (dbg : Bool) (M w : Nat) (ts : List (Vec ℝ 3 × Vec ℝ 3 × Vec ℝ 3)) (hM : 3 * ts.length < M)
    {f : Vec ℝ 3 → Vec ℝ 3} (hf : Function.Injective f) :
    ∃ m, buildMesh dbg M w ts = .ok m ∧
      buildMesh dbg M w (ts.map fun t => (f t.1, f t.2.1, f t.2.2)) = .ok { m with points := m.points.map f } := by
  refine ⟨_, buildMesh_eq dbg M w ts hM, ?_⟩
  change buildMesh dbg M w (ts.map (mapTriangle f)) = _
  rw [buildMesh_eq dbg M w _ (by rw [List.length_map]; exact hM), oppFinal_map hf]
  unfold tsMesh meshOfO
  rw [corners_map, weld_map hf]
  simp

variable [BEq (HMat ℝ)] [LawfulBEq (HMat ℝ)]

/-- Two index buffer builds whose placed points correspond by `f`. -/
theorem build_moved (dbg : Bool) (M w : Nat) (trafo trafo' : HMat ℝ) (points points' : List (Vec ℝ 3)) (idx : List Nat)
    (hM : idx.length < M) {f : Vec ℝ 3 → Vec ℝ 3} (hf : Function.Injective f) (hl : points'.length = points.length)
    (h : ∀ i < points.length, transformVec (points'.getD i 0) trafo' = f (transformVec (points.getD i 0) trafo)) :
    buildTriangleHalfedgeMesh dbg M w trafo' points' idx =
      (buildTriangleHalfedgeMesh dbg M w trafo points idx).map (movedMesh f) := by
  by_cases hd : dbg = true → points ≠ [] ∧ idx.length % 3 = 0
  · have hd' : dbg = true → points' ≠ [] ∧ idx.length % 3 = 0 := fun e =>
      ⟨fun h0 => (hd e).1 (List.length_eq_zero_iff.1 (by rw [← hl, h0]; rfl)), (hd e).2⟩
    rcases build_cases dbg M w trafo points idx (by omega) hd with ⟨h1, e1⟩ | ⟨h1, e1⟩ <;>
      rcases build_cases dbg M w trafo' points' idx (by omega) hd' with ⟨h2, e2⟩ | ⟨h2, e2⟩
    · rw [e1, e2]
      have : bufferTriangles trafo' points' idx = (bufferTriangles trafo points idx).map (mapTriangle f) := by
        unfold bufferTriangles
        rw [List.map_map]
        apply List.map_congr_left
        intro t ht
        obtain ⟨a, b, c⟩ := h1 t ht
        simp only [Function.comp_def, mapTriangle, reversed, h _ a, h _ b, h _ c]
      rw [this]
      obtain ⟨m, hm, hm'⟩ := C124_commute dbg M w (bufferTriangles trafo points idx) (by rw [bufferTriangles_length]; omega) hf
      rw [hm]
      exact hm'
    · rw [hl] at h2; exact absurd h1 h2
    · rw [hl] at h2; exact absurd h2 h1
    · rw [e1, e2]; rfl
  · push Not at hd
    obtain ⟨rfl, h0⟩ := hd
    unfold buildTriangleHalfedgeMesh
    by_cases hp : points = []
    · have hp' : points' = [] := List.length_eq_zero_iff.1 (by rw [hl, hp]; rfl)
      rw [hp, hp']; rfl
    · have h3 := h0 hp
      have e : (idx.length % 3 == 0) = false := by simpa using h3
      have hpos : 0 < points.length := List.length_pos_iff.2 hp
      rw [hl, e]
      simp only [gt_iff_lt, hpos, decide_true]
      rfl

/-- **C124** Placing the points of a buffer by a transformation that keeps points apart gives the mesh of the unplaced
points, moved: the placement decides nothing but the points. -/
theorem C124_placement (dbg : Bool) (M w : Nat) (trafo : HMat ℝ) (points : List (Vec ℝ 3)) (idx : List Nat)
    (hM : idx.length < M) (hf : Function.Injective fun p => transformVec p trafo) :
    buildTriangleHalfedgeMesh dbg M w trafo points idx =
      (buildTriangleHalfedgeMesh dbg M w hmatIdentity points idx).map
        fun m => { m with points := m.points.map fun p => transformVec p trafo } :=
  build_moved dbg M w hmatIdentity trafo points points idx hM hf rfl
    (fun i _ => by rw [transformVec_identity])

/-- The transformation that translates by `t`. -/
def translation (t : Vec ℝ 3) : HMat ℝ := hmatSetTranslation hmatIdentity t

theorem describes_translation' (t : Vec ℝ 3) : Describes (translation t) 1 t :=
  describes_translation (b := 0) ⟨fun i j => by
    simp only [hmatIdentity, Fin.castSucc_inj, Matrix.one_apply], fun i => by
      fin_cases i <;> rfl, fun j => by fin_cases j <;> rfl, rfl⟩ t

theorem transformVec_translation (t p : Vec ℝ 3) : transformVec p (translation t) = p + t := by
  rw [transformVec_eq (describes_translation' t), affine, one_mulVec]

theorem add_right_inj' (t : Vec ℝ 3) : Function.Injective fun p : Vec ℝ 3 => p + t := fun _ _ h => add_right_cancel h

theorem getD_mem {α : Type} (l : List α) (d : α) {i : Nat} (h : i < l.length) : ∃ a, l[i]? = some a ∧ l.getD i d = a :=
  ⟨l[i], List.getElem?_eq_getElem h, by simp [List.getD, List.getElem?_eq_getElem h]⟩

theorem map_pair_fst {α β : Type} (x : Res α) (b : β) : (x.map fun m => (m, b)).map Prod.fst = x := by
  cases x <;> rfl

theorem sphPt_scale (c r : ℝ) (p n : Nat) (v : SphV) : sphPt (c * r) p n v = c • sphPt r p n v := by
  cases v with
  | top => funext i; fin_cases i <;> simp [sphPt]
  | bot => funext i; fin_cases i <;> simp [sphPt]
  | g i j => funext k; fin_cases k <;> simp [sphPt] <;> ring

/-- Moving a sphere by a scaling and a translation moves its mesh. -/
theorem sphere_moved (dbg : Bool) (M w : Nat) (b : SphereBuilder ℝ) (hp : 2 ≤ b.polarCount) (hn : 1 ≤ b.azimuthCount)
    (hM : 6 * b.azimuthCount * (b.polarCount - 1) < M) {c : ℝ} (hc : c ≠ 0) (t : Vec ℝ 3) (s : Sphere ℝ)
    (ho : s.origin = c • b.theSphere.origin + t) (hr : s.radius = c * b.theSphere.radius) :
    ((b.setSphere s).build dbg M w).map Prod.fst =
      ((b.build dbg M w).map Prod.fst).map (movedMesh fun p => c • p + t) := by
  have hM' : (b.polarCount - 1) * b.azimuthCount + 2 < M := by
    have : 1 ≤ (b.polarCount - 1) * b.azimuthCount := Nat.mul_pos (by omega) hn
    nlinarith
  have hth : (b.setSphere s).theSphere = s := rfl
  rw [sphereBuild_eq dbg M w b hp hn hM', sphereBuild_eq dbg M w (b.setSphere s) hp hn hM', map_pair_fst, map_pair_fst, hth]
  have hq : (b.setSphere s).polarCount = b.polarCount := rfl
  have hq' : (b.setSphere s).azimuthCount = b.azimuthCount := rfl
  rw [hq, hq']
  apply build_moved
  · rw [sphIdx_length hp hn]; exact hM
  · intro p q h
    exact smul_right_injective _ hc (add_right_cancel h)
  · rw [sphPoints_length, sphPoints_length]
  · intro i hi
    rw [transformVec_identity, transformVec_identity, calcSpherePoints_eq, calcSpherePoints_eq]
    rw [calcSpherePoints_eq, List.length_map] at hi
    obtain ⟨v, hv, _⟩ := getD_mem (sphVerts b.polarCount b.azimuthCount) .top hi
    simp only [List.getD, List.getElem?_map, hv, Option.map_some, Option.getD_some, ho, hr, sphPt_scale]
    rw [smul_add, add_assoc]

/-- **C124** Translating a sphere and building it gives the mesh of the sphere translated by `MeshPoints::transform`.
(Rotations are missing: there it is false.) -/
theorem C124_sphere_partial (dbg : Bool) (M w : Nat) (b : SphereBuilder ℝ) (hp : 2 ≤ b.polarCount) (hn : 1 ≤ b.azimuthCount)
    (hM : 6 * b.azimuthCount * (b.polarCount - 1) < M) (t : Vec ℝ 3) (trafo : HMat ℝ) (ht : Describes trafo 1 t) :
    ∃ m b₁ b₂, b.build dbg M w = .ok (m, b₁) ∧
      (b.setSphere (transformSphere b.theSphere trafo)).build dbg M w = .ok ({ m with points := pointsTransform m.points t }, b₂) := by
  obtain ⟨m, b₁, hm⟩ := C58_in_range dbg M w b hp hn hM
  have h := sphere_moved dbg M w b hp hn hM one_ne_zero t (transformSphere b.theSphere trafo)
    (by simp [transformSphere, transformVec_eq ht, affine]) (by simp [transformSphere])
  rw [hm] at h
  obtain ⟨m₂, b₂, hm₂⟩ := C58_in_range dbg M w (b.setSphere (transformSphere b.theSphere trafo)) hp hn hM
  refine ⟨m, b₁, b₂, hm, ?_⟩
  rw [hm₂] at h ⊢
  simp only [Except.map, Except.ok.injEq, movedMesh, one_smul] at h
  rw [h]; rfl

/-- **C124** Scaling a sphere about the zero point and building it gives the scaled mesh. -/
theorem C124_sphere_scaled (dbg : Bool) (M w : Nat) (b : SphereBuilder ℝ) (hp : 2 ≤ b.polarCount) (hn : 1 ≤ b.azimuthCount)
    (hM : 6 * b.azimuthCount * (b.polarCount - 1) < M) {c : ℝ} (hc : c ≠ 0) :
    ∃ m b₁ b₂, b.build dbg M w = .ok (m, b₁) ∧
      (b.setSphere ⟨c • b.theSphere.origin, c * b.theSphere.radius⟩).build dbg M w =
        .ok ({ m with points := m.points.map fun p => c • p }, b₂) := by
  obtain ⟨m, b₁, hm⟩ := C58_in_range dbg M w b hp hn hM
  have h := sphere_moved dbg M w b hp hn hM hc 0 ⟨c • b.theSphere.origin, c * b.theSphere.radius⟩ (by simp) rfl
  rw [hm] at h
  obtain ⟨m₂, b₂, hm₂⟩ := C58_in_range dbg M w (b.setSphere ⟨c • b.theSphere.origin, c * b.theSphere.radius⟩) hp hn hM
  refine ⟨m, b₁, b₂, hm, ?_⟩
  rw [hm₂] at h ⊢
  simp only [Except.map, Except.ok.injEq, movedMesh, add_zero] at h
  rw [h]

theorem transformSegment_translation {trafo : HMat ℝ} {t : Vec ℝ 3} (ht : Describes trafo 1 t) (s : Segment ℝ 3) :
    transformSegment s trafo = ⟨s.source + t, s.target + t⟩ := by
  unfold transformSegment
  rw [transformVec_eq ht, transformVec_eq ht, affine, affine, one_mulVec, one_mulVec]

theorem vsub_translate (s : Segment ℝ 3) (t : Vec ℝ 3) : vsub (s.target + t) (s.source + t) = vsub s.target s.source := by
  rw [vsub_eq, vsub_eq]; abel

theorem transformVec_setTranslation (R : HMat ℝ) (s t p : Vec ℝ 3) :
    transformVec p (hmatSetTranslation R (s + t)) = transformVec p (hmatSetTranslation R s) + t := by
  funext i
  rw [Pi.add_apply, transformVec_apply, transformVec_apply]
  fin_cases i <;> simp [hmatSetTranslation] <;> ring

section
variable [Tol ℝ] [LawfulTol ℝ]

/-- **C124** Translating a cone and building it gives the translated mesh, whatever `rot_align` returns.
(Rotations are missing: there it is false.) -/
theorem C124_cone_partial (dbg : Bool) (M w : Nat) (rotAlign : Vec ℝ 4 → Vec ℝ 4 → HMat ℝ) (cone : Cone ℝ) (n : Nat)
    (hM : 6 * n + 1 < M) (hseg : cone.segment.source ≠ cone.segment.target)
    (hz : dbg = true → isZero cone.segment.length = false) (t : Vec ℝ 3) (trafo : HMat ℝ) (ht : Describes trafo 1 t) :
    ∃ m, coneBuild dbg M w rotAlign (some cone) n = .ok (some m) ∧
      coneBuild dbg M w rotAlign (some (transformCone cone trafo)) n =
        .ok (some { m with points := pointsTransform m.points t }) := by
  obtain ⟨m, hm⟩ := C56_in_range dbg M w rotAlign cone n hM hseg hz
  refine ⟨m, hm, ?_⟩
  have hs := transformSegment_translation ht cone.segment
  have hlen : (transformCone cone trafo).segment.length = cone.segment.length := by
    unfold transformCone Segment.length; rw [hs]; dsimp only; rw [vsub_translate]
  have hdir : (transformCone cone trafo).segment.direction = cone.segment.direction := by
    unfold transformCone Segment.direction; rw [hs]; dsimp only; rw [vsub_translate]
  have hsrc : (transformCone cone trafo).segment.source = cone.segment.source + t := by
    unfold transformCone; rw [hs]
  rw [coneBuild_eq dbg M w rotAlign cone n (by omega) hseg hz] at hm
  rw [coneBuild_eq dbg M w rotAlign (transformCone cone trafo) n (by omega)
    (by
      unfold transformCone; rw [hs]; dsimp only
      intro e; exact hseg (add_right_cancel e))
    (by rw [hlen]; exact hz), hlen, hdir, hsrc, show (transformCone cone trafo).radius = cone.radius from rfl,
    build_moved dbg M w (hmatSetTranslation (rotAlign (hvec4 0 0 1 1) (toHvec cone.segment.direction)) cone.segment.source) _
      (vec3 0 0 0 :: discretizeCircle (vec3 0 0 0) cone.radius n .ccw ++ [vec3 0 0 cone.segment.length]) _ (coneIdx n)
      (by rw [coneIdx_length]; omega) (add_right_inj' t) rfl (fun i _ => transformVec_setTranslation ..), of_map_some hm]
  rfl
end

/-- **C124** Translating a cylinder and building it gives the translated mesh, whatever `rot_align` returns.
(Rotations are missing: there it is false.) -/
theorem C124_cylinder_partial (dbg : Bool) (M w : Nat) (rotAlign : Vec ℝ 4 → Vec ℝ 4 → HMat ℝ) (cyl : Cylinder ℝ) (n : Nat)
    (hn : 2 ≤ n) (hM : 12 * n < M) (t : Vec ℝ 3) (trafo : HMat ℝ) (ht : Describes trafo 1 t) :
    ∃ m, cylinderBuild dbg M w rotAlign (some cyl) n = .ok (some m) ∧
      cylinderBuild dbg M w rotAlign (some (transformCylinder cyl trafo)) n =
        .ok (some { m with points := pointsTransform m.points t }) := by
  obtain ⟨m, hm⟩ := C57_in_range_partial dbg M w rotAlign cyl n hn hM
  refine ⟨m, hm, ?_⟩
  have hs := transformSegment_translation ht cyl.segment
  have hlen : (transformCylinder cyl trafo).segment.length = cyl.segment.length := by
    unfold transformCylinder Segment.length; rw [hs]; dsimp only; rw [vsub_translate]
  have hdir : (transformCylinder cyl trafo).segment.direction = cyl.segment.direction := by
    unfold transformCylinder Segment.direction; rw [hs]; dsimp only; rw [vsub_translate]
  have hsrc : (transformCylinder cyl trafo).segment.source = cyl.segment.source + t := by
    unfold transformCylinder; rw [hs]
  rw [cylinderBuild_eq dbg M w rotAlign cyl n hn (by omega)] at hm
  rw [cylinderBuild_eq dbg M w rotAlign (transformCylinder cyl trafo) n hn (by omega), hlen, hdir, hsrc,
    show (transformCylinder cyl trafo).radius = cyl.radius from rfl,
    build_moved dbg M w (hmatSetTranslation (rotAlign (hvec4 0 0 1 1) (toHvec cyl.segment.direction)) cyl.segment.source) _
      (cylPoints cyl.radius cyl.segment.length n) _ (cylIdx n)
      (by rw [cylIdx_length]; omega) (add_right_inj' t) rfl (fun i _ => transformVec_setTranslation ..), of_map_some hm]
  rfl

theorem cuboidTriangles_moved (c : Cuboid ℝ) (A : Matrix (Fin 3) (Fin 3) ℝ) (b : Vec ℝ 3) :
    cuboidTriangles ⟨affine A b c.origin, fun i => A *ᵥ c.sides i⟩ = (cuboidTriangles c).map (mapTriangle (affine A b)) := by
  have k : ∀ a, corner (affine A b c.origin) (fun i => A *ᵥ c.sides i) a = affine A b (corner c.origin c.sides a) := by
    intro a
    rw [corner_eq, corner_eq]
    unfold affine
    rw [mulVec_add, Matrix.mulVec_sum]
    simp only [mulVec_smul]
    abel
  rw [cuboidTriangles_eq, cuboidTriangles_eq, List.map_map]
  apply List.map_congr_left
  intro x _
  simp only [mapTriangle, Function.comp_def, k]

/-- **C124** Moving the origin and the sides of a cuboid by any affine map that keeps points apart and building it gives
the moved mesh; a debug build refuses both or neither. -/
theorem C124_cuboid (dbg : Bool) (M w : Nat) (b : CuboidBuilder ℝ) (hM : 36 < M) (A : Matrix (Fin 3) (Fin 3) ℝ)
    (t : Vec ℝ 3) (hA : Function.Injective (affine A t)) :
    ((b.setCuboid ⟨affine A t b.theCuboid.origin, fun i => A *ᵥ b.theCuboid.sides i⟩).build dbg M w).map Prod.fst =
      (b.build dbg M w).map fun r => { r.1 with points := r.1.points.map (affine A t) } := by
  obtain ⟨m, hm, _, _, _, _, hb⟩ := cuboid_build dbg M w b hM
  obtain ⟨m', hm', _, _, _, _, hb'⟩ := cuboid_build dbg M w
    (b.setCuboid ⟨affine A t b.theCuboid.origin, fun i => A *ᵥ b.theCuboid.sides i⟩) hM
  have hth : (b.setCuboid ⟨affine A t b.theCuboid.origin, fun i => A *ᵥ b.theCuboid.sides i⟩).theCuboid =
      ⟨affine A t b.theCuboid.origin, fun i => A *ᵥ b.theCuboid.sides i⟩ := rfl
  obtain ⟨m'', h1, h2⟩ := C124_commute dbg M w (cuboidTriangles b.theCuboid) (by rw [cuboidTriangles_length]; omega) hA
  rw [hm, Except.ok.injEq] at h1
  subst h1
  rw [hth, cuboidTriangles_moved] at hm'
  have : m' = { m with points := m.points.map (affine A t) } := by
    have := hm'.symm.trans h2
    simpa using this
  rw [hb, hb', this]
  simp only [List.length_map]
  split <;> rfl

/-! ### Rotations -/

/-- The rotation by `a` about the z-axis. -/
noncomputable def turnZ (a : ℝ) : Matrix (Fin 3) (Fin 3) ℝ := !![cos a, -sin a, 0; sin a, cos a, 0; 0, 0, 1]

theorem turnZ_orthogonal (a : ℝ) : Orthogonal (turnZ a) := by
  have := Real.sin_sq_add_cos_sq a
  unfold Orthogonal turnZ
  ext i j
  fin_cases i <;> fin_cases j <;> simp [Matrix.mul_apply, Fin.sum_univ_three] <;> nlinarith

theorem turnZ_det (a : ℝ) : (turnZ a).det = 1 := by
  have := Real.sin_sq_add_cos_sq a
  unfold turnZ
  rw [Matrix.det_fin_three]
  simp
  nlinarith

theorem turnZ_axis (a z : ℝ) : turnZ a *ᵥ vec3 0 0 z = vec3 0 0 z := by
  funext i; fin_cases i <;> simp [turnZ, mulVec, dotProduct, Fin.sum_univ_three, vec3]

theorem turnZ_ring (a r : ℝ) (z : ℝ) : turnZ a *ᵥ vec3 r 0 z = vec3 (cos a * r) (sin a * r) z := by
  funext i; fin_cases i <;> simp [turnZ, mulVec, dotProduct, Fin.sum_univ_three, vec3]

/-- Half a step is no whole number of steps. -/
theorem half_step {n : Nat} (hn : 1 ≤ n) {s : ℝ} (hs : s = 1 ∨ s = -1) (j : Nat) (hc : cos (azimuth n s j) = cos (π / n))
    (hs' : sin (azimuth n s j) = sin (π / n)) : False := by
  have hn0 : (n : ℝ) ≠ 0 := by exact_mod_cast (by omega : n ≠ 0)
  have hp := Real.pi_pos.ne'
  have h1 : cos (azimuth n s j - π / n) = 1 := by
    rw [cos_sub, hc, hs']; nlinarith [Real.sin_sq_add_cos_sq (π / n)]
  obtain ⟨k, hk⟩ := (Real.cos_eq_one_iff _).1 h1
  unfold azimuth at hk
  rcases hs with rfl | rfl
  · have : (k : ℝ) * 2 * n = 2 * j - 1 := by
      field_simp at hk; linarith
    have : k * 2 * n = 2 * j - 1 := by exact_mod_cast this
    rw [mul_right_comm] at this
    generalize k * (n : ℤ) = q at this
    omega
  · have : (k : ℝ) * 2 * n = -(2 * j) - 1 := by
      field_simp at hk; linarith
    have : k * 2 * n = -(2 * j) - 1 := by exact_mod_cast this
    rw [mul_right_comm] at this
    generalize k * (n : ℤ) = q at this
    omega

/-- The matrix of the rigid motion `p ↦ B (p - o) + o`. -/
def aboutPoint (B : Matrix (Fin 3) (Fin 3) ℝ) (o : Vec ℝ 3) : HMat ℝ := fun i j =>
  if hi : i.val < 3 then (if hj : j.val < 3 then B ⟨i, hi⟩ ⟨j, hj⟩ else (o - B *ᵥ o) ⟨i, hi⟩) else if j = 3 then 1 else 0

theorem describes_aboutPoint (B : Matrix (Fin 3) (Fin 3) ℝ) (o : Vec ℝ 3) : Describes (aboutPoint B o) B (o - B *ᵥ o) := by
  refine ⟨?_, ?_, ?_, ?_⟩
  · intro i j; fin_cases i <;> fin_cases j <;> rfl
  · intro i; fin_cases i <;> rfl
  · intro j; fin_cases j <;> rfl
  · rfl

theorem transform_aboutPoint (B : Matrix (Fin 3) (Fin 3) ℝ) (o d : Vec ℝ 3) :
    transformVec (d + o) (aboutPoint B o) = B *ᵥ d + o := by
  rw [transformVec_eq (describes_aboutPoint B o), affine, mulVec_add]
  abel

/-- **C124 refuted for rotations of spheres**: for every sphere there is a rotation about its centre, which leaves the
sphere as it is, so the mesh of the rotated sphere is the mesh of the sphere; but the rotated mesh has a point that this
mesh does not have. -/
theorem C124_sphere_counterexample (dbg : Bool) (M w : Nat) (b : SphereBuilder ℝ) (hp : 2 ≤ b.polarCount) (hn : 1 ≤ b.azimuthCount)
    (hM : 6 * b.azimuthCount * (b.polarCount - 1) < M) (hr : b.theSphere.radius ≠ 0) :
    ∃ (trafo : HMat ℝ) (B : Matrix (Fin 3) (Fin 3) ℝ) (t : Vec ℝ 3) (m : HalfedgeMesh (Vec ℝ 3)) (b₁ : SphereBuilder ℝ),
      Describes trafo B t ∧ Orthogonal B ∧ B.det = 1 ∧
      (b.setSphere (transformSphere b.theSphere trafo)).build dbg M w = .ok (m, b₁) ∧ b.build dbg M w = .ok (m, b₁) ∧
      ∃ v ∈ m.points, transformVec v trafo ∉ m.points := by
  have hM' : (b.polarCount - 1) * b.azimuthCount + 2 < M := by
    have : 1 ≤ (b.polarCount - 1) * b.azimuthCount := Nat.mul_pos (by omega) hn
    nlinarith
  set B := turnZ (π / b.azimuthCount) with hB
  set o := b.theSphere.origin with ho
  obtain ⟨m, hm, _, _, _, hmem, _⟩ := build_welds dbg M w hmatIdentity
    (calcSpherePoints b.theSphere b.polarCount b.azimuthCount) (sphIdx b.polarCount b.azimuthCount)
    (by rw [sphIdx_length hp hn]; exact hM) (by rw [sphIdx_length hp hn, Nat.mul_assoc]; omega)
    (by
      intro h
      have := sphPoints_length b.theSphere b.polarCount b.azimuthCount
      rw [h] at this; simp at this)
    (by rw [sphPoints_length]; exact sphIdx_mem hp hn) (apart_real _)
  have hmem' : ∀ v, v ∈ m.points ↔ ∃ u ∈ sphVerts b.polarCount b.azimuthCount, sphPt b.theSphere.radius b.polarCount b.azimuthCount u + o = v := by
    intro v
    have hpl : placeOf (hmatIdentity : HMat ℝ) = id := funext fun p => by rw [placeOf_eq, transformVec_identity]; rfl
    rw [hmem, hpl, List.map_id, calcSpherePoints_eq, List.mem_map]
  have hfix : transformSphere b.theSphere (aboutPoint B o) = b.theSphere := by
    unfold transformSphere
    have := transform_aboutPoint B o 0
    rw [zero_add, mulVec_zero, zero_add] at this
    rw [← ho, this]
  have hbuild : b.build dbg M w = .ok (m, { b with sphere := some b.theSphere }) := by
    rw [sphereBuild_eq dbg M w b hp hn hM', hm]; rfl
  refine ⟨aboutPoint B o, B, _, m, _, describes_aboutPoint B o, turnZ_orthogonal _, turnZ_det _, ?_, hbuild, ?_⟩
  · rw [hfix, sphereBuild_eq dbg M w (b.setSphere b.theSphere) hp hn hM']
    change Except.map _ (buildTriangleHalfedgeMesh dbg M w hmatIdentity
      (calcSpherePoints b.theSphere b.polarCount b.azimuthCount) (sphIdx b.polarCount b.azimuthCount)) = _
    rw [hm]; rfl
  · have hs0 := sin_pos_of_pos_of_lt_pi (polar_mem (p := b.polarCount) (i := 0) (by omega)).1 (polar_mem (p := b.polarCount) (i := 0) (by omega)).2
    refine ⟨sphPt b.theSphere.radius b.polarCount b.azimuthCount (.g 0 0) + o, (hmem' _).2 ⟨.g 0 0, ?_, rfl⟩, ?_⟩
    · simp [sphVerts]; omega
    · rw [transform_aboutPoint, hmem']
      rintro ⟨u, hu, e⟩
      have e := add_right_cancel e
      have e1 : sphPt b.theSphere.radius b.polarCount b.azimuthCount (.g 0 0) =
          vec3 (b.theSphere.radius * sin (polar b.polarCount 0)) 0 (b.theSphere.radius * cos (polar b.polarCount 0)) := by
        simp [sphPt, azimuth]
      rw [e1, hB, turnZ_ring] at e
      have hru : b.theSphere.radius * sin (polar b.polarCount 0) ≠ 0 := mul_ne_zero hr hs0.ne'
      have x0 := congrFun e 0
      have x1 := congrFun e 1
      have x2 := congrFun e 2
      have pole : ¬ (cos (π / b.azimuthCount) * (b.theSphere.radius * sin (polar b.polarCount 0)) = 0 ∧
          sin (π / b.azimuthCount) * (b.theSphere.radius * sin (polar b.polarCount 0)) = 0) := by
        rintro ⟨h1, h2⟩
        have h1 := (mul_eq_zero.1 h1).resolve_right hru
        have h2 := (mul_eq_zero.1 h2).resolve_right hru
        have := Real.sin_sq_add_cos_sq (π / b.azimuthCount)
        rw [h1, h2] at this; norm_num at this
      cases u with
      | top => exact pole ⟨by simpa [sphPt] using x0.symm, by simpa [sphPt] using x1.symm⟩
      | bot => exact pole ⟨by simpa [sphPt] using x0.symm, by simpa [sphPt] using x1.symm⟩
      | g i j =>
        obtain ⟨hi, _⟩ := sphVerts_ok hu
        simp only [sphPt, vec3_0, vec3_1, vec3_2] at x0 x1 x2
        have hc : cos (polar b.polarCount i) = cos (polar b.polarCount 0) := mul_left_cancel₀ hr x2
        have hi0 : polar b.polarCount i = polar b.polarCount 0 :=
          Real.injOn_cos ⟨(polar_mem hi).1.le, (polar_mem hi).2.le⟩
            ⟨(polar_mem (p := b.polarCount) (i := 0) (by omega)).1.le, (polar_mem (p := b.polarCount) (i := 0) (by omega)).2.le⟩ hc
        rw [hi0] at x0 x1
        exact half_step hn (Or.inl rfl) j
          (mul_right_cancel₀ hru (by linarith)) (mul_right_cancel₀ hru (by linarith))

/-- The rotation about the axis of a placed solid by half a step moves a point of the ring off the ring. -/
theorem rotated_ring {n : Nat} (hn : 1 ≤ n) {r : ℝ} (hr : r ≠ 0) {A : Matrix (Fin 3) (Fin 3) ℝ} (hA : Orthogonal A) (hdet : A.det = 1)
    (seg : Segment ℝ 3) (hz : A *ᵥ ![0, 0, 1] = seg.direction) (hl : seg.length • seg.direction + seg.source = seg.target) :
    ∃ B : Matrix (Fin 3) (Fin 3) ℝ, Orthogonal B ∧ B.det = 1 ∧ transformSegment seg (aboutPoint B seg.source) = seg ∧
      transformVec (affine A seg.source (vec3 r 0 0)) (aboutPoint B seg.source) =
        affine A seg.source (vec3 (cos (π / n) * r) (sin (π / n) * r) 0) ∧
      ∀ s, s = 1 ∨ s = -1 → ∀ h j, vec3 (cos (π / n) * r) (sin (π / n) * r) 0 ≠ vec3 0 0 h + circlePt r n s j := by
  have hA' : A * Aᵀ = 1 := mul_eq_one_comm.1 hA
  have hAA : ∀ d, Aᵀ *ᵥ (A *ᵥ d) = d := fun d => by rw [mulVec_mulVec, show Aᵀ * A = 1 from hA, one_mulVec]
  have hBA : ∀ a d, (A * turnZ a * Aᵀ) *ᵥ (A *ᵥ d) = A *ᵥ (turnZ a *ᵥ d) := by
    intro a d
    rw [Matrix.mul_assoc, ← mulVec_mulVec, ← mulVec_mulVec, hAA]
  have hR := turnZ_orthogonal (π / n)
  have ax : (![0, 0, 1] : Vec ℝ 3) = vec3 0 0 1 := by funext i; fin_cases i <;> rfl
  refine ⟨A * turnZ (π / n) * Aᵀ, ?_, ?_, ?_, ?_, ?_⟩
  · unfold Orthogonal at hR ⊢
    rw [transpose_mul, transpose_mul, transpose_transpose]
    calc A * ((turnZ (π / n))ᵀ * Aᵀ) * (A * turnZ (π / n) * Aᵀ)
        = A * (turnZ (π / n))ᵀ * (Aᵀ * A) * turnZ (π / n) * Aᵀ := by simp only [Matrix.mul_assoc]
      _ = A * ((turnZ (π / n))ᵀ * turnZ (π / n)) * Aᵀ := by
          rw [show Aᵀ * A = 1 from hA]; simp only [Matrix.mul_assoc, Matrix.one_mul]
      _ = 1 := by rw [hR, Matrix.mul_one, hA']
  · rw [det_mul, det_mul, det_transpose, hdet, turnZ_det]; norm_num
  · have h1 : transformVec seg.source (aboutPoint (A * turnZ (π / n) * Aᵀ) seg.source) = seg.source := by
      have := transform_aboutPoint (A * turnZ (π / n) * Aᵀ) seg.source 0
      rwa [zero_add, mulVec_zero, zero_add] at this
    have h2 : transformVec seg.target (aboutPoint (A * turnZ (π / n) * Aᵀ) seg.source) = seg.target := by
      have := transform_aboutPoint (A * turnZ (π / n) * Aᵀ) seg.source (seg.length • seg.direction)
      rw [hl, mulVec_smul, ← hz, hBA, ax, turnZ_axis,
        ← ax, hz, hl] at this
      exact this
    unfold transformSegment
    rw [h1, h2]
  · unfold affine
    rw [transform_aboutPoint, hBA, turnZ_ring]
  · intro s hs h j e
    have x0 := congrFun e 0
    have x1 := congrFun e 1
    simp only [circlePt, vec3_0, vec3_1, Pi.add_apply, zero_add] at x0 x1
    exact half_step hn hs j (mul_right_cancel₀ hr x0.symm) (mul_right_cancel₀ hr x1.symm)

theorem ring_ne_axis {n : Nat} {r : ℝ} (hr : r ≠ 0) (h : ℝ) : vec3 (cos (π / n) * r) (sin (π / n) * r) 0 ≠ vec3 0 0 h := by
  intro e
  have x0 := congrFun e 0
  have x1 := congrFun e 1
  simp only [vec3_0, vec3_1] at x0 x1
  have h1 := (mul_eq_zero.1 x0).resolve_right hr
  have h2 := (mul_eq_zero.1 x1).resolve_right hr
  have := Real.sin_sq_add_cos_sq (π / n)
  rw [h1, h2] at this; norm_num at this

theorem ring_first {n : Nat} (hn : 1 ≤ n) (r : ℝ) :
    vec3 r 0 0 ∈ discretizeCircle (vec3 0 0 0) r n .ccw := by
  rw [discretizeCircle_eq, List.mem_map]
  refine ⟨0, by simp; omega, ?_⟩
  rw [vec3_zero, zero_add]
  simp [circlePt, azimuth]

section
variable [Tol ℝ] [LawfulTol ℝ]

/-- **C124 refuted for rotations of cones**: for every cone, whatever `rot_align` does, there is a rotation about the axis
of the cone, which leaves the cone as it is; but it moves a point of the mesh to where the mesh has no point. -/
theorem C124_cone_counterexample (dbg : Bool) (M w : Nat) (rotAlign : Vec ℝ 4 → Vec ℝ 4 → HMat ℝ) (cone : Cone ℝ) (n : Nat)
    (hn : 1 ≤ n) (hM : 6 * n + 1 < M) (hr : cone.radius ≠ 0) (hseg : cone.segment.source ≠ cone.segment.target)
    (hz : dbg = true → isZero cone.segment.length = false)
    (hrot : RotatesZTo (rotAlign (hvec4 0 0 1 1) (toHvec cone.segment.direction)) cone.segment.direction) :
    ∃ (trafo : HMat ℝ) (B : Matrix (Fin 3) (Fin 3) ℝ) (t : Vec ℝ 3) (m : HalfedgeMesh (Vec ℝ 3)),
      Describes trafo B t ∧ Orthogonal B ∧ B.det = 1 ∧
      coneBuild dbg M w rotAlign (some (transformCone cone trafo)) n = .ok (some m) ∧
      coneBuild dbg M w rotAlign (some cone) n = .ok (some m) ∧
      ∃ v ∈ m.points, transformVec v trafo ∉ m.points := by
  obtain ⟨A, hA, hdet, hz', htr⟩ := placed hrot
  obtain ⟨B, hB, hBd, hfix, hmove, hoff⟩ := rotated_ring hn hr hA hdet cone.segment hz' (segment_target hseg)
  have hl : (vec3 0 0 0 :: discretizeCircle (vec3 0 0 0) cone.radius n .ccw ++ [vec3 0 0 cone.segment.length]).length = n + 2 := by
    simp [discretizeCircle_eq]
  obtain ⟨m, hm, _, _, _, hmem, _⟩ := build_welds dbg M w
    (hmatSetTranslation (rotAlign (hvec4 0 0 1 1) (toHvec cone.segment.direction)) cone.segment.source)
    (vec3 0 0 0 :: discretizeCircle (vec3 0 0 0) cone.radius n .ccw ++ [vec3 0 0 cone.segment.length]) (coneIdx n)
    (by rw [coneIdx_length]; omega) (by rw [coneIdx_length]; omega) (by simp) (by rw [hl]; exact coneIdx_mem hn) (apart_real _)
  have hpl : placeOf (hmatSetTranslation (rotAlign (hvec4 0 0 1 1) (toHvec cone.segment.direction)) cone.segment.source) =
      affine A cone.segment.source := funext fun p => by rw [placeOf_eq, htr]
  rw [hpl] at hmem
  have hb : coneBuild dbg M w rotAlign (some cone) n = .ok (some m) := by
    rw [coneBuild_eq dbg M w rotAlign cone n (by omega) hseg hz, hm]; rfl
  refine ⟨aboutPoint B cone.segment.source, B, _, m, describes_aboutPoint _ _, hB, hBd, ?_, hb, ?_⟩
  · unfold transformCone
    rw [hfix]; exact hb
  · refine ⟨affine A cone.segment.source (vec3 cone.radius 0 0), (hmem _).2 (List.mem_map_of_mem ?_), ?_⟩
    · rw [List.cons_append, List.mem_cons, List.mem_append]
      exact Or.inr (Or.inl (ring_first hn _))
    · rw [hmove, hmem, List.mem_map]
      rintro ⟨p, hp, e⟩
      have e := hA.injective cone.segment.source e
      rw [List.cons_append, List.mem_cons, List.mem_append, List.mem_singleton] at hp
      rcases hp with hp | hp | hp
      · exact ring_ne_axis hr 0 (e.symm.trans hp)
      · rw [discretizeCircle_eq] at hp
        obtain ⟨i, _, rfl⟩ := List.mem_map.1 hp
        exact hoff _ (dirSign_cases _) _ _ e.symm
      · exact ring_ne_axis hr _ (e.symm.trans hp)
end

/-- **C124 refuted for rotations of cylinders**, as for cones. -/
theorem C124_cylinder_counterexample (dbg : Bool) (M w : Nat) (rotAlign : Vec ℝ 4 → Vec ℝ 4 → HMat ℝ) (cyl : Cylinder ℝ) (n : Nat)
    (hn : 2 ≤ n) (hM : 12 * n < M) (hr : cyl.radius ≠ 0) (hseg : cyl.segment.source ≠ cyl.segment.target)
    (hrot : RotatesZTo (rotAlign (hvec4 0 0 1 1) (toHvec cyl.segment.direction)) cyl.segment.direction) :
    ∃ (trafo : HMat ℝ) (B : Matrix (Fin 3) (Fin 3) ℝ) (t : Vec ℝ 3) (m : HalfedgeMesh (Vec ℝ 3)),
      Describes trafo B t ∧ Orthogonal B ∧ B.det = 1 ∧
      cylinderBuild dbg M w rotAlign (some (transformCylinder cyl trafo)) n = .ok (some m) ∧
      cylinderBuild dbg M w rotAlign (some cyl) n = .ok (some m) ∧
      ∃ v ∈ m.points, transformVec v trafo ∉ m.points := by
  obtain ⟨A, hA, hdet, hz', htr⟩ := placed hrot
  obtain ⟨B, hB, hBd, hfix, hmove, hoff⟩ := rotated_ring (n := n) (by omega) hr hA hdet cyl.segment hz' (segment_target hseg)
  obtain ⟨m, hm, _, _, _, hmem, _⟩ := build_welds dbg M w
    (hmatSetTranslation (rotAlign (hvec4 0 0 1 1) (toHvec cyl.segment.direction)) cyl.segment.source)
    (cylPoints cyl.radius cyl.segment.length n) (cylIdx n)
    (by rw [cylIdx_length]; omega) (by rw [cylIdx_length]; omega) (by simp [cylPoints]) (by rw [cylPoints_length]; exact cylIdx_mem hn)
    (apart_real _)
  have hpl : placeOf (hmatSetTranslation (rotAlign (hvec4 0 0 1 1) (toHvec cyl.segment.direction)) cyl.segment.source) =
      affine A cyl.segment.source := funext fun p => by rw [placeOf_eq, htr]
  rw [hpl] at hmem
  have hb : cylinderBuild dbg M w rotAlign (some cyl) n = .ok (some m) := by
    rw [cylinderBuild_eq dbg M w rotAlign cyl n hn (by omega), hm]; rfl
  refine ⟨aboutPoint B cyl.segment.source, B, _, m, describes_aboutPoint _ _, hB, hBd, ?_, hb, ?_⟩
  · unfold transformCylinder
    rw [hfix]; exact hb
  · refine ⟨affine A cyl.segment.source (vec3 cyl.radius 0 0), (hmem _).2 (List.mem_map_of_mem ?_), ?_⟩
    · unfold cylPoints
      rw [List.mem_append, List.mem_cons]
      exact Or.inl (Or.inr (ring_first (by omega) _))
    · rw [hmove, hmem, List.mem_map]
      rintro ⟨p, hp, e⟩
      have e := hA.injective cyl.segment.source e
      unfold cylPoints at hp
      rw [List.mem_append, List.mem_cons, List.mem_cons] at hp
      rcases hp with (hp | hp) | (hp | hp)
      · exact ring_ne_axis hr 0 (e.symm.trans hp)
      · rw [discretizeCircle_eq] at hp
        obtain ⟨i, _, rfl⟩ := List.mem_map.1 hp
        exact hoff _ (dirSign_cases _) _ _ e.symm
      · exact ring_ne_axis hr _ (e.symm.trans hp)
      · rw [discretizeCircle_eq] at hp
        obtain ⟨i, _, rfl⟩ := List.mem_map.1 hp
        exact hoff _ (dirSign_cases _) _ _ e.symm
end

section Examples
attribute [local instance] realTol realTol_lawful
open Classical

/-- Two triangles, mirrored. -/
example : ∃ m, buildMesh true 256 8 [(vec3 0 0 0, vec3 1 0 0, vec3 0 1 0), (vec3 1 0 0, vec3 1 1 0, (vec3 0 1 0 : Vec ℝ 3))] = .ok m ∧
    buildMesh true 256 8 [(-vec3 0 0 0, -vec3 1 0 0, -vec3 0 1 0), (-vec3 1 0 0, -vec3 1 1 0, (-vec3 0 1 0 : Vec ℝ 3))] =
      .ok { m with points := m.points.map fun p => -p } :=
  C124_commute true 256 8 [(vec3 0 0 0, vec3 1 0 0, vec3 0 1 0), (vec3 1 0 0, vec3 1 1 0, vec3 0 1 0)] (by decide) neg_injective

example : buildTriangleHalfedgeMesh true 256 8 (translation (vec3 1 2 3)) [vec3 0 0 0, vec3 1 0 0, vec3 0 1 0] [0, 1, 2] =
    (buildTriangleHalfedgeMesh true 256 8 hmatIdentity [vec3 0 0 0, vec3 1 0 0, vec3 0 1 0] [0, 1, 2]).map
      fun m => { m with points := m.points.map fun p => transformVec p (translation (vec3 1 2 3)) } :=
  C124_placement true 256 8 _ _ _ (by decide) (fun p q h => by
    simp only [transformVec_translation] at h
    exact add_right_cancel h)

example : ∃ m b₁ b₂, exSphere.build true 65536 16 = .ok (m, b₁) ∧
    (exSphere.setSphere (transformSphere exSphere.theSphere (translation (vec3 1 2 3)))).build true 65536 16 =
      .ok ({ m with points := pointsTransform m.points (vec3 1 2 3) }, b₂) :=
  C124_sphere_partial true 65536 16 exSphere (by decide) (by decide) (by decide) _ _ (describes_translation' _)

example : ∃ m b₁ b₂, exSphere.build true 65536 16 = .ok (m, b₁) ∧
    (exSphere.setSphere ⟨(-3 : ℝ) • exSphere.theSphere.origin, -3 * exSphere.theSphere.radius⟩).build true 65536 16 =
      .ok ({ m with points := m.points.map fun p => (-3 : ℝ) • p }, b₂) :=
  C124_sphere_scaled true 65536 16 exSphere (by decide) (by decide) (by decide) (by norm_num)

example : ∃ m, coneBuild true 256 8 rotAlignZ (some ⟨exSeg, 2⟩) 6 = .ok (some m) ∧
    coneBuild true 256 8 rotAlignZ (some (transformCone ⟨exSeg, 2⟩ (translation (vec3 1 2 3)))) 6 =
      .ok (some { m with points := pointsTransform m.points (vec3 1 2 3) }) :=
  C124_cone_partial true 256 8 rotAlignZ ⟨exSeg, 2⟩ 6 (by decide) exSeg_ne (fun _ => exSeg_nonzero) _ _ (describes_translation' _)

example : ∃ m, cylinderBuild true 256 8 rotAlignZ (some ⟨exSeg, 2⟩) 6 = .ok (some m) ∧
    cylinderBuild true 256 8 rotAlignZ (some (transformCylinder ⟨exSeg, 2⟩ (translation (vec3 1 2 3)))) 6 =
      .ok (some { m with points := pointsTransform m.points (vec3 1 2 3) }) :=
  C124_cylinder_partial true 256 8 rotAlignZ ⟨exSeg, 2⟩ 6 (by decide) (by decide) _ _ (describes_translation' _)

example : ((exBox.setCuboid ⟨affine (turnZ 1) (vec3 1 2 3) exBox.theCuboid.origin, fun i => turnZ 1 *ᵥ exBox.theCuboid.sides i⟩).build
    true 256 8).map Prod.fst =
      (exBox.build true 256 8).map fun r => { r.1 with points := r.1.points.map (affine (turnZ 1) (vec3 1 2 3)) } :=
  C124_cuboid true 256 8 exBox (by decide) (turnZ 1) (vec3 1 2 3) ((turnZ_orthogonal 1).injective _)

example : ∃ (trafo : HMat ℝ) (m : HalfedgeMesh (Vec ℝ 3)) (b₁ : SphereBuilder ℝ),
    (exSphere.setSphere (transformSphere exSphere.theSphere trafo)).build true 65536 16 = .ok (m, b₁) ∧
      exSphere.build true 65536 16 = .ok (m, b₁) ∧ ∃ v ∈ m.points, transformVec v trafo ∉ m.points := by
  obtain ⟨trafo, _, _, m, b₁, _, _, _, h1, h2, h3⟩ := C124_sphere_counterexample true 65536 16 exSphere (by decide) (by decide)
    (by decide) (by simp [exSphere, SphereBuilder.theSphere])
  exact ⟨trafo, m, b₁, h1, h2, h3⟩

example : ∃ (trafo : HMat ℝ) (m : HalfedgeMesh (Vec ℝ 3)),
    coneBuild true 256 8 rotAlignZ (some (transformCone ⟨exSeg, 2⟩ trafo)) 6 = .ok (some m) ∧
      coneBuild true 256 8 rotAlignZ (some ⟨exSeg, 2⟩) 6 = .ok (some m) ∧ ∃ v ∈ m.points, transformVec v trafo ∉ m.points := by
  obtain ⟨trafo, _, _, m, _, _, _, h1, h2, h3⟩ := C124_cone_counterexample true 256 8 rotAlignZ ⟨exSeg, 2⟩ 6 (by decide) (by decide)
    (by norm_num) exSeg_ne (fun _ => exSeg_nonzero) (exSeg_rot _)
  exact ⟨trafo, m, h1, h2, h3⟩

example : ∃ (trafo : HMat ℝ) (m : HalfedgeMesh (Vec ℝ 3)),
    cylinderBuild true 256 8 rotAlignZ (some (transformCylinder ⟨exSeg, 2⟩ trafo)) 6 = .ok (some m) ∧
      cylinderBuild true 256 8 rotAlignZ (some ⟨exSeg, 2⟩) 6 = .ok (some m) ∧ ∃ v ∈ m.points, transformVec v trafo ∉ m.points := by
  obtain ⟨trafo, _, _, m, _, _, _, h1, h2, h3⟩ := C124_cylinder_counterexample true 256 8 rotAlignZ ⟨exSeg, 2⟩ 6 (by decide) (by decide)
    (by norm_num) exSeg_ne (exSeg_rot _)
  exact ⟨trafo, m, h1, h2, h3⟩
end Examples
end Verif
