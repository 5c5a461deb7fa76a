import Verif.Model.Facade
import Verif.Props.SphereMesh
import Verif.Props.CuboidMesh

set_option linter.unusedSectionVars false

/-
C79: repeated use of a builder; C80: the `MeshBuilder` front end.
-/
namespace Verif
open Spec

section
variable [BEq (HMat ℝ)] [BEq (Vec ℝ 3)]

/-- What a user has asked of a sphere builder so far. -/
structure SphereWish where
  polarCount : Nat
  azimuthCount : Nat
  origin : Vec ℝ 3
  radius : ℝ

/-- The wishes at the `build` calls of a session. -/
def SphereWish.wishes (M : Nat) : SphereWish → List (SphereCall ℝ) → List SphereWish
  | _, [] => []
  | s, .setPolarCount n :: cs => wishes M { s with polarCount := n % M } cs
  | s, .setAzimuthCount n :: cs => wishes M { s with azimuthCount := n % M } cs
  | s, .setSphere t :: cs => wishes M { s with origin := t.origin, radius := t.radius } cs
  | s, .setOrigin o :: cs => wishes M { s with origin := o } cs
  | s, .setRadius r :: cs => wishes M { s with radius := r } cs
  | s, .build :: cs => s :: wishes M s cs

/-- The mesh a builder that is used only once makes for a wish. -/
noncomputable def SphereWish.mesh (dbg : Bool) (M w : Nat) (s : SphereWish) : Res (HalfedgeMesh (Vec ℝ 3)) := do
  let r ← SphereBuilder.build dbg M w ⟨s.polarCount, s.azimuthCount, s.origin, s.radius, none⟩
  .ok r.1

theorem sphere_build_fst (dbg : Bool) (M w : Nat) (b : SphereBuilder ℝ) :
    b.build dbg M w = (SphereWish.mesh dbg M w ⟨b.polarCount, b.azimuthCount, b.theSphere.origin, b.theSphere.radius⟩ >>= fun m =>
      .ok (m, { b with sphere := some b.theSphere })) := by
  unfold SphereWish.mesh SphereBuilder.build
  simp only [bind_assoc]
  rfl

theorem SphereBuilder.session_eq (dbg : Bool) (M w : Nat) : ∀ (cs : List (SphereCall ℝ)) (b : SphereBuilder ℝ),
    b.session dbg M w cs = (SphereWish.wishes M ⟨b.polarCount, b.azimuthCount, b.theSphere.origin, b.theSphere.radius⟩ cs).mapM
      (SphereWish.mesh dbg M w) := by
  intro cs
  induction cs with
  | nil => intro b; rfl
  | cons c cs ih =>
    intro b
    cases c with
    | setPolarCount n => exact ih _
    | setAzimuthCount n => exact ih _
    | setSphere s => exact ih _
    | setOrigin o =>
      show SphereBuilder.session dbg M w cs (b.setOrigin o) = _
      rw [ih]
      rcases b with ⟨p, n, o', r, s⟩
      cases s <;> rfl
    | setRadius o =>
      show SphereBuilder.session dbg M w cs (b.setRadius o) = _
      rw [ih]
      rcases b with ⟨p, n, o', r, s⟩
      cases s <;> rfl
    | build =>
      show (b.build dbg M w >>= _) = _
      rw [sphere_build_fst]
      simp only [SphereWish.wishes, List.mapM_cons, bind_assoc]
      congr 1
      funext m
      rw [ok_bind, ih]
      rfl

/-- **C79** (spheres): every mesh of a session is the one a fresh builder makes for what was set last before it. -/
theorem C79_sphere (dbg : Bool) (M w : Nat) (o : Vec ℝ 3) (r : ℝ) (cs : List (SphereCall ℝ)) :
    SphereBuilder.session dbg M w cs { origin := o, radius := r } =
      (SphereWish.wishes M ⟨10, 20, o, r⟩ cs).mapM (SphereWish.mesh dbg M w) :=
  SphereBuilder.session_eq dbg M w cs _

/-- What a user has asked of a cone builder at the `build` calls of a session: the cone (if any) and the count set last. -/
def coneWishes : Option (Cone ℝ) → Nat → List (ConeCall ℝ) → List (Option (Cone ℝ) × Nat)
  | _, _, [] => []
  | _, n, .setCone c :: cs => coneWishes (some c) n cs
  | c, _, .setAzimuthCount n :: cs => coneWishes c n cs
  | c, n, .build :: cs => (c, n) :: coneWishes c n cs

theorem cone_build_fst [Tol ℝ] (dbg : Bool) (M w : Nat) (R : Vec ℝ 4 → Vec ℝ 4 → HMat ℝ) (b : ConeBuilder ℝ) :
    ∃ f : Option (HalfedgeMesh (Vec ℝ 3)) → HMat ℝ, b.build dbg M w R = (coneBuild dbg M w R b.cone b.azimuthCount >>= fun m =>
      .ok (m, { b with transformation := f m })) := by
  rcases b with ⟨c, n, t⟩
  cases c with
  | none => refine ⟨fun _ => t, ?_⟩; cases dbg <;> rfl
  | some c =>
    refine ⟨fun _ => hmatSetTranslation (R (hvec4 0 0 1 1) (hvec4 (c.segment.direction 0) (c.segment.direction 1) (c.segment.direction 2) 1))
      c.segment.source, ?_⟩
    unfold ConeBuilder.build coneBuild
    simp only [bind_assoc]
    rfl

/-- **C79** (cones): every mesh of a session is the one a fresh builder makes for the cone and the count set last before it. -/
theorem C79_cone [Tol ℝ] (dbg : Bool) (M w : Nat) (R : Vec ℝ 4 → Vec ℝ 4 → HMat ℝ) (cs : List (ConeCall ℝ)) :
    ConeBuilder.session dbg M w R cs ConeBuilder.init = (coneWishes none 20 cs).mapM fun x => coneBuild dbg M w R x.1 x.2 := by
  suffices h : ∀ (cs : List (ConeCall ℝ)) (b : ConeBuilder ℝ), b.session dbg M w R cs =
      (coneWishes b.cone b.azimuthCount cs).mapM fun x => coneBuild dbg M w R x.1 x.2 from h cs _
  intro cs
  induction cs with
  | nil => intro b; rfl
  | cons c cs ih =>
    intro b
    cases c with
    | setCone c => exact ih _
    | setAzimuthCount n => exact ih _
    | build =>
      show (b.build dbg M w R >>= _) = _
      obtain ⟨f, hf⟩ := cone_build_fst dbg M w R b
      rw [hf]
      simp only [coneWishes, List.mapM_cons, bind_assoc]
      congr 1
      funext m
      rw [ok_bind, ih]
      rfl

/-- What a user has asked of a cylinder builder at the `build` calls of a session. -/
def cylinderWishes : Option (Cylinder ℝ) → Nat → List (CylinderCall ℝ) → List (Option (Cylinder ℝ) × Nat)
  | _, _, [] => []
  | _, n, .setCylinder c :: cs => cylinderWishes (some c) n cs
  | c, _, .setAzimuthCount n :: cs => cylinderWishes c n cs
  | c, n, .build :: cs => (c, n) :: cylinderWishes c n cs

theorem cylinder_build_fst (dbg : Bool) (M w : Nat) (R : Vec ℝ 4 → Vec ℝ 4 → HMat ℝ) (b : CylinderBuilder ℝ) :
    ∃ f : Option (HalfedgeMesh (Vec ℝ 3)) → HMat ℝ, b.build dbg M w R = (cylinderBuild dbg M w R b.cylinder b.azimuthCount >>= fun m =>
      .ok (m, { b with transformation := f m })) := by
  rcases b with ⟨c, n, t⟩
  cases c with
  | none => refine ⟨fun _ => t, ?_⟩; cases dbg <;> rfl
  | some c =>
    refine ⟨fun _ => hmatSetTranslation (R (hvec4 0 0 1 1) (toHvec c.segment.direction)) c.segment.source, ?_⟩
    unfold CylinderBuilder.build cylinderBuild
    simp only [bind_assoc]
    rfl

/-- **C79** (cylinders). -/
theorem C79_cylinder (dbg : Bool) (M w : Nat) (R : Vec ℝ 4 → Vec ℝ 4 → HMat ℝ) (cs : List (CylinderCall ℝ)) :
    CylinderBuilder.session dbg M w R cs CylinderBuilder.init =
      (cylinderWishes none 20 cs).mapM fun x => cylinderBuild dbg M w R x.1 x.2 := by
  suffices h : ∀ (cs : List (CylinderCall ℝ)) (b : CylinderBuilder ℝ), b.session dbg M w R cs =
      (cylinderWishes b.cylinder b.azimuthCount cs).mapM fun x => cylinderBuild dbg M w R x.1 x.2 from h cs _
  intro cs
  induction cs with
  | nil => intro b; rfl
  | cons c cs ih =>
    intro b
    cases c with
    | setCylinder c => exact ih _
    | setAzimuthCount n => exact ih _
    | build =>
      show (b.build dbg M w R >>= _) = _
      obtain ⟨f, hf⟩ := cylinder_build_fst dbg M w R b
      rw [hf]
      simp only [cylinderWishes, List.mapM_cons, bind_assoc]
      congr 1
      funext m
      rw [ok_bind, ih]
      rfl

/-- The meshes a cuboid builder would make if it followed its setters. -/
noncomputable def cuboidMesh (dbg : Bool) (M w : Nat) (c : Cuboid ℝ) : Res (HalfedgeMesh (Vec ℝ 3)) := do
  let r ← CuboidBuilder.build dbg M w ⟨some c, 0, 0⟩
  .ok r.1

/-- The box of the origin and the diagonal set last, or the cuboid set last, whichever came later, at the `build` calls of a session. -/
noncomputable def cuboidWishes : (o d : Vec ℝ 3) → (c : Cuboid ℝ) → List (CuboidCall ℝ) → List (Cuboid ℝ)
  | _, _, _, [] => []
  | _, d, _, .setOrigin o :: cs => cuboidWishes o d (Cuboid.ofDiagonal o d) cs
  | o, _, _, .setDiagonal d :: cs => cuboidWishes o d (Cuboid.ofDiagonal o d) cs
  | o, d, _, .setCuboid c :: cs => cuboidWishes o d c cs
  | o, d, c, .build :: cs => c :: cuboidWishes o d c cs

theorem cuboid_build_fst (dbg : Bool) (M w : Nat) (b : CuboidBuilder ℝ) :
    b.build dbg M w = (cuboidMesh dbg M w b.theCuboid >>= fun m => .ok (m, { b with cube := some b.theCuboid })) := by
  unfold cuboidMesh CuboidBuilder.build
  simp only [bind_assoc]
  rfl

/-- **C79** Once a cuboid builder stores a cuboid, leaving out all `set_origin` and `set_diagonal` calls changes nothing. -/
theorem C79_cuboid_stored (dbg : Bool) (M w : Nat) : ∀ (cs : List (CuboidCall ℝ)) (c : Cuboid ℝ) (o d : Vec ℝ 3),
    CuboidBuilder.session dbg M w cs ⟨some c, o, d⟩ = CuboidBuilder.session dbg M w (cs.filter fun x =>
      match x with | .setOrigin _ => false | .setDiagonal _ => false | _ => true) ⟨some c, 0, 0⟩ := by
  intro cs
  induction cs with
  | nil => intro c o d; rfl
  | cons x cs ih =>
    intro c o d
    cases x with
    | setOrigin o' => exact ih c o' d
    | setDiagonal d' => exact ih c o d'
    | setCuboid c' => exact ih c' o d
    | build =>
      show (CuboidBuilder.build dbg M w _ >>= _) = _
      rw [cuboid_build_fst, List.filter_cons_of_pos rfl]
      show _ = (CuboidBuilder.build dbg M w _ >>= _)
      rw [cuboid_build_fst]
      simp only [bind_assoc]
      have e : CuboidBuilder.theCuboid ⟨some c, o, d⟩ = CuboidBuilder.theCuboid ⟨some c, 0, 0⟩ := rfl
      rw [e]
      congr 1
      funext m
      rw [ok_bind, ok_bind, ih]

/-- **C79** is false for cuboids: after the first `build`, `set_origin` and `set_diagonal` have no effect. -/
theorem C79_cuboid_counterexample (dbg : Bool) (M w : Nat) (o d o' d' : Vec ℝ 3) (b : CuboidBuilder ℝ)
    {ms : List (HalfedgeMesh (Vec ℝ 3))}
    (h : b.session dbg M w [.setOrigin o, .setDiagonal d, .build, .setOrigin o', .setDiagonal d', .build] = .ok ms) :
    ∃ m, ms = [m, m] := by
  change (CuboidBuilder.build dbg M w ((b.setOrigin o).setDiagonal d) >>= _) = _ at h
  rw [cuboid_build_fst] at h
  simp only [bind_assoc] at h
  cases hm : cuboidMesh dbg M w ((b.setOrigin o).setDiagonal d).theCuboid with
  | error e => rw [hm] at h; cases h
  | ok m =>
    rw [hm, ok_bind, ok_bind] at h
    change ((CuboidBuilder.build dbg M w ⟨some ((b.setOrigin o).setDiagonal d).theCuboid, o', d'⟩ >>= _) >>= _) = _ at h
    rw [cuboid_build_fst] at h
    have e : CuboidBuilder.theCuboid ⟨some ((b.setOrigin o).setDiagonal d).theCuboid, o', d'⟩ =
      ((b.setOrigin o).setDiagonal d).theCuboid := rfl
    rw [e, hm] at h
    simp only [ok_bind, CuboidBuilder.session] at h
    exact ⟨m, (Except.ok.inj h).symm⟩

/-- No `set_origin` or `set_diagonal` after a `build` or a `set_cuboid`. -/
def noLateSetter : Bool → List (CuboidCall ℝ) → Prop
  | _, [] => True
  | late, .setOrigin _ :: cs => late = false ∧ noLateSetter late cs
  | late, .setDiagonal _ :: cs => late = false ∧ noLateSetter late cs
  | _, .setCuboid _ :: cs => noLateSetter true cs
  | _, .build :: cs => noLateSetter true cs

theorem CuboidBuilder.session_eq (dbg : Bool) (M w : Nat) : ∀ (cs : List (CuboidCall ℝ)) (b : CuboidBuilder ℝ),
    noLateSetter b.cube.isSome cs →
    b.session dbg M w cs = (cuboidWishes b.origin b.diagonal b.theCuboid cs).mapM (cuboidMesh dbg M w) := by
  intro cs
  induction cs with
  | nil => intro b _; rfl
  | cons x cs ih =>
    intro b h
    cases x with
    | setOrigin o =>
      rcases b with ⟨_ | c, o', d'⟩
      · exact ih _ h.2
      · exact absurd h.1 (by simp)
    | setDiagonal d =>
      rcases b with ⟨_ | c, o', d'⟩
      · exact ih _ h.2
      · exact absurd h.1 (by simp)
    | setCuboid c => exact ih (b.setCuboid c) h
    | build =>
      show (CuboidBuilder.build dbg M w b >>= _) = _
      rw [cuboid_build_fst]
      simp only [cuboidWishes, List.mapM_cons, bind_assoc]
      congr 1
      funext m
      rw [ok_bind, ih _ h]
      rfl

/-- **C79**, cuboids: as long as `set_origin` and `set_diagonal` are only called before the first `build` and the first `set_cuboid`.
Missing: later calls, which have no effect (`C79_cuboid_counterexample`). -/
theorem C79_cuboid_partial (dbg : Bool) (M w : Nat) (o d : Vec ℝ 3) (cs : List (CuboidCall ℝ)) (h : noLateSetter false cs) :
    CuboidBuilder.session dbg M w cs { origin := o, diagonal := d } =
      (cuboidWishes o d (Cuboid.ofDiagonal o d) cs).mapM (cuboidMesh dbg M w) :=
  CuboidBuilder.session_eq dbg M w cs _ h
end

/-! ### C80 -/
section
variable [BEq (HMat ℝ)] [LawfulBEq (HMat ℝ)] [BEq (Vec ℝ 3)] [LawfulBEq (Vec ℝ 3)]

/-- A closed mesh with the Euler characteristic of the sphere, edges counted by `calc_line_indices`. -/
def SphereLike (dbg : Bool) (m : HalfedgeMesh (Vec ℝ 3)) : Prop :=
  ClosedMesh m ∧ ∀ MU, m.vertices.length ≤ MU → ∃ l, calcLineIndices dbg MU m = .ok l ∧
    (m.vertices.length : ℤ) - l.length / 2 + m.facets.length = 2

/-- **C80** (spheres): for every configuration with at least two rings and three sectors that fits the index type. -/
theorem C80_sphere (dbg : Bool) (M w : Nat) (b0 : SphereBuilder ℝ) (cfg : MeshBuilderConfig) (s : Sphere ℝ)
    (hp : 2 ≤ cfg.polarCount) (hn : 3 ≤ cfg.azimuthCount) (hM : 6 * cfg.azimuthCount * (cfg.polarCount - 1) < M) (hr : s.radius ≠ 0) :
    ∃ m, meshBuilderSphere dbg M w b0 cfg s = .ok m ∧ SphereLike dbg m ∧ ∀ v ∈ m.points, Spec.dist v s.origin = |s.radius| := by
  have h1 : cfg.azimuthCount < M := by
    have : cfg.azimuthCount * 1 ≤ cfg.azimuthCount * (cfg.polarCount - 1) := Nat.mul_le_mul_left _ (by omega)
    nlinarith
  have h2 : cfg.polarCount < M := by
    have : 3 * (cfg.polarCount - 1) ≤ cfg.azimuthCount * (cfg.polarCount - 1) := Nat.mul_le_mul_right _ hn
    have : 18 * (cfg.polarCount - 1) < M := by nlinarith
    omega
  let b : SphereBuilder ℝ := ((b0.setPolarCount M cfg.polarCount).setAzimuthCount M cfg.azimuthCount).setSphere s
  have e1 : b.polarCount = cfg.polarCount := Nat.mod_eq_of_lt h2
  have e2 : b.azimuthCount = cfg.azimuthCount := Nat.mod_eq_of_lt h1
  have hM' : 6 * b.azimuthCount * (b.polarCount - 1) < M := by rw [e1, e2]; exact hM
  obtain ⟨m, b', hm, hc, hv, hf, hl⟩ := C58_closed dbg M w b (by omega) (by omega) hM' hr
  refine ⟨m, by unfold meshBuilderSphere; rw [hm]; rfl, ⟨hc, ?_⟩, C60_sphere dbg M w b (by omega) (by omega) hM' m b' hm⟩
  intro MU hMU
  obtain ⟨l, hl1, hl2⟩ := hl MU (by omega)
  refine ⟨l, hl1, ?_⟩
  rw [hv, hf, hl2]
  have : 3 * b.azimuthCount * (b.polarCount - 1) = 3 * ((b.polarCount - 1) * b.azimuthCount) := by ring
  have : 2 * b.azimuthCount * (b.polarCount - 1) = 2 * ((b.polarCount - 1) * b.azimuthCount) := by ring
  omega

/-- **C80** (cuboids). -/
theorem C80_cuboid (dbg : Bool) (M w : Nat) (b0 : CuboidBuilder ℝ) (c : Cuboid ℝ) (hM : 36 < M) (hi : LinearIndependent ℝ c.sides) :
    ∃ m, meshBuilderCuboid dbg M w b0 c = .ok m ∧ SphereLike dbg m ∧ m.points.Perm (edgeChoices.map (corner c.origin c.sides)) := by
  obtain ⟨m, b', hm, hc, hp, hv, hf, hl⟩ := C59_cuboid dbg M w (b0.setCuboid c) hM hi
  refine ⟨m, by unfold meshBuilderCuboid; rw [hm]; rfl, ⟨hc, ?_⟩, hp⟩
  intro MU hMU
  obtain ⟨l, hl1, hl2⟩ := hl MU (by omega)
  exact ⟨l, hl1, by rw [hv, hf, hl2]; norm_num⟩

/-- **C80** (cones). -/
theorem C80_cone [Tol ℝ] [LawfulTol ℝ] (dbg : Bool) (M w : Nat) (rotAlign : Vec ℝ 4 → Vec ℝ 4 → HMat ℝ) (cfg : MeshBuilderConfig)
    (c : Cone ℝ) (hn : 3 ≤ cfg.azimuthCount) (hM : 6 * cfg.azimuthCount + 1 < M) (hr : 0 < c.radius)
    (hseg : c.segment.source ≠ c.segment.target) (hz : dbg = true → isZero c.segment.length = false)
    (hrot : RotatesZTo (rotAlign (hvec4 0 0 1 1) (toHvec c.segment.direction)) c.segment.direction) :
    ∃ m, meshBuilderCone dbg M w rotAlign cfg c = .ok (some m) ∧ SphereLike dbg m ∧
      ∀ v ∈ m.points, v = c.segment.source ∨ v = c.segment.target ∨ v ∈ circle c.segment.source c.segment.direction c.radius := by
  have e : cfg.azimuthCount % M = cfg.azimuthCount := Nat.mod_eq_of_lt (by omega)
  unfold meshBuilderCone
  rw [e]
  obtain ⟨m, hm, hc, hv, hf, hl⟩ := C56_closed dbg M w rotAlign c _ hn (by omega) hr.ne' hseg hz hrot
  refine ⟨m, hm, ⟨hc, ?_⟩, C60_cone dbg M w rotAlign c _ hM hr.le hseg hz hrot m hm⟩
  intro MU hMU
  obtain ⟨l, hl1, hl2⟩ := hl MU (by omega)
  refine ⟨l, hl1, ?_⟩
  rw [hv, hf, hl2]
  omega

/-- **C80** (cylinders). -/
theorem C80_cylinder (dbg : Bool) (M w : Nat) (rotAlign : Vec ℝ 4 → Vec ℝ 4 → HMat ℝ) (cfg : MeshBuilderConfig)
    (c : Cylinder ℝ) (hn : 3 ≤ cfg.azimuthCount) (hM : 12 * cfg.azimuthCount < M) (hr : 0 < c.radius)
    (hseg : c.segment.source ≠ c.segment.target)
    (hrot : RotatesZTo (rotAlign (hvec4 0 0 1 1) (toHvec c.segment.direction)) c.segment.direction) :
    ∃ m, meshBuilderCylinder dbg M w rotAlign cfg c = .ok (some m) ∧ SphereLike dbg m ∧
      ∀ v ∈ m.points, v = c.segment.source ∨ v = c.segment.target ∨
        v ∈ circle c.segment.source c.segment.direction c.radius ∨ v ∈ circle c.segment.target c.segment.direction c.radius := by
  have e : cfg.azimuthCount % M = cfg.azimuthCount := Nat.mod_eq_of_lt (by omega)
  unfold meshBuilderCylinder
  rw [e]
  obtain ⟨m, hm, hc, hv, hf, hl⟩ := C57_closed dbg M w rotAlign c _ hn hM hr.ne' hseg hrot
  refine ⟨m, hm, ⟨hc, ?_⟩, C60_cylinder dbg M w rotAlign c _ (by omega) hM hr.le hseg hrot m hm⟩
  intro MU hMU
  obtain ⟨l, hl1, hl2⟩ := hl MU (by omega)
  refine ⟨l, hl1, ?_⟩
  rw [hv, hf, hl2]
  omega

/-- **C80** The default configuration needs an index type with more than 1080 values: with an 8-bit index type a debug build refuses every
sphere, although the 182 points would fit. -/
theorem C80_default_needs_16_bit (w : Nat) (b0 : SphereBuilder ℝ) (s : Sphere ℝ) :
    (∀ M, 1080 < M → s.radius ≠ 0 → ∃ m, meshBuilderSphere true M w b0 {} s = .ok m ∧ SphereLike true m) ∧
    ¬ ∃ m, meshBuilderSphere true 256 w b0 {} s = .ok m := by
  constructor
  · intro M hM hr
    obtain ⟨m, h1, h2, _⟩ := C80_sphere true M w b0 {} s (by decide) (by decide) (by simpa using hM) hr
    exact ⟨m, h1, h2⟩
  · rintro ⟨m, hm⟩
    unfold meshBuilderSphere at hm
    obtain ⟨r, hm, _⟩ := bind_ok hm
    rw [sphereBuild_eq true 256 w _ (show 2 ≤ 10 by decide) (show 1 ≤ 20 by decide) (show (10 - 1) * 20 + 2 < 256 by decide)] at hm
    have hm' : ∃ m, buildTriangleHalfedgeMesh true 256 w hmatIdentity
        (calcSpherePoints (SphereBuilder.theSphere (((b0.setPolarCount 256 10).setAzimuthCount 256 20).setSphere s)) 10 20) (sphIdx 10 20) =
        .ok m := by
      cases h : buildTriangleHalfedgeMesh true 256 w hmatIdentity
        (calcSpherePoints (SphereBuilder.theSphere (((b0.setPolarCount 256 10).setAzimuthCount 256 20).setSphere s)) 10 20)
        (sphIdx 10 20) with
      | ok m => exact ⟨m, rfl⟩
      | error e =>
        change Except.map _ (buildTriangleHalfedgeMesh true 256 w hmatIdentity
          (calcSpherePoints (SphereBuilder.theSphere (((b0.setPolarCount 256 10).setAzimuthCount 256 20).setSphere s)) 10 20)
          (sphIdx 10 20)) = _ at hm
        rw [h] at hm; cases hm
    have := ((C61_capacity 256 w (by decide) _ _ _).1 hm').2.2.2
    rw [sphIdx_length (by decide) (by decide)] at this
    omega
end

section Examples
attribute [local instance] realTol realTol_lawful
variable [BEq (HMat ℝ)] [LawfulBEq (HMat ℝ)] [BEq (Vec ℝ 3)] [LawfulBEq (Vec ℝ 3)]

example (o : Vec ℝ 3) : SphereBuilder.session true 65536 16 [.setRadius 2, .build, .setOrigin o, .setPolarCount 5, .build]
    { origin := vec3 0 0 0, radius := 1 } =
    [⟨10, 20, vec3 0 0 0, 2⟩, ⟨5, 20, o, 2⟩].mapM (SphereWish.mesh true 65536 16) := C79_sphere ..
example (c c' : Cone ℝ) : ConeBuilder.session true 256 8 rotAlignZ [.setCone c, .build, .setAzimuthCount 5, .setCone c', .build, .build] ConeBuilder.init =
    [(some c, 20), (some c', 5), (some c', 5)].mapM fun x => coneBuild true 256 8 rotAlignZ x.1 x.2 := C79_cone ..
example (c c' : Cylinder ℝ) : CylinderBuilder.session false 256 8 rotAlignZ [.build, .setCylinder c, .build, .setCylinder c', .build] CylinderBuilder.init =
    [(none, 20), (some c, 20), (some c', 20)].mapM fun x => cylinderBuild false 256 8 rotAlignZ x.1 x.2 := C79_cylinder ..
/-- The second box should lie elsewhere, but both meshes have the corners of the first. -/
example : ∃ m, CuboidBuilder.session true 256 8 [.setOrigin (vec3 1 2 3), .setDiagonal (vec3 2 (-1) 4), .build,
      .setOrigin (vec3 7 7 7), .setDiagonal (vec3 1 1 1), .build] ({ origin := 0, diagonal := 0 } : CuboidBuilder ℝ) = .ok [m, m] ∧
      vec3 1 2 3 ∈ m.points := by
  obtain ⟨m, b', h1, -, hp, -⟩ := C59_cuboid true 256 8 exBox (by decide) exBox_independent
  have h2 : ∃ ms, CuboidBuilder.session true 256 8 [.setOrigin (vec3 1 2 3), .setDiagonal (vec3 2 (-1) 4), .build,
      .setOrigin (vec3 7 7 7), .setDiagonal (vec3 1 1 1), .build] ({ origin := 0, diagonal := 0 } : CuboidBuilder ℝ) = .ok (m :: ms) := by
    have hm : cuboidMesh true 256 8 exBox.theCuboid = .ok m := by
      rw [cuboid_build_fst] at h1
      obtain ⟨x, hx, h1⟩ := bind_ok h1
      rw [hx]; cases h1; rfl
    show ∃ ms, (CuboidBuilder.build true 256 8 exBox >>= _) = _
    rw [cuboid_build_fst, hm, ok_bind, ok_bind]
    show ∃ ms, ((CuboidBuilder.build true 256 8 ⟨some exBox.theCuboid, vec3 7 7 7, vec3 1 1 1⟩ >>= _) >>= _) = _
    rw [cuboid_build_fst, show CuboidBuilder.theCuboid ⟨some exBox.theCuboid, vec3 7 7 7, vec3 1 1 1⟩ = exBox.theCuboid from rfl,
      hm]
    exact ⟨_, rfl⟩
  obtain ⟨ms, h2⟩ := h2
  obtain ⟨m', h3⟩ := C79_cuboid_counterexample true 256 8 _ _ _ _ _ h2
  obtain ⟨rfl, rfl⟩ := List.cons.inj h3
  refine ⟨m, h2, hp.mem_iff.2 ?_⟩
  refine List.mem_map.2 ⟨![false, false, false], by simp [edgeChoices], ?_⟩
  funext k
  simp [corner, Fin.sum_univ_three, exBox, CuboidBuilder.theCuboid, Cuboid.ofDiagonal]
example (c : Cuboid ℝ) : CuboidBuilder.session true 256 8 [.setOrigin (vec3 1 2 3), .build, .setCuboid c, .build, .build]
    { origin := 0, diagonal := vec3 1 1 1 } =
    [Cuboid.ofDiagonal (vec3 1 2 3) (vec3 1 1 1), c, c].mapM (cuboidMesh true 256 8) :=
  C79_cuboid_partial _ _ _ _ _ _ (by simp [noLateSetter])
example (c : Cuboid ℝ) (o : Vec ℝ 3) : CuboidBuilder.session true 256 8 [.build, .setOrigin o, .build] ⟨some c, 0, 0⟩ =
    CuboidBuilder.session true 256 8 [.build, .build] ⟨some c, 0, 0⟩ := C79_cuboid_stored ..
example : ∃ m, meshBuilderSphere true 65536 16 exSphere ⟨4, 6⟩ ⟨vec3 1 2 3, 5⟩ = .ok m ∧ SphereLike true m ∧
    ∀ v ∈ m.points, Spec.dist v (vec3 1 2 3) = |5| :=
  C80_sphere true 65536 16 exSphere ⟨4, 6⟩ ⟨vec3 1 2 3, 5⟩ (by decide) (by decide) (by decide) (by norm_num)
example : ∃ m, meshBuilderCuboid true 256 8 exBox exBox.theCuboid = .ok m ∧ SphereLike true m ∧
    m.points.Perm (edgeChoices.map (corner exBox.theCuboid.origin exBox.theCuboid.sides)) :=
  C80_cuboid true 256 8 exBox exBox.theCuboid (by decide) exBox_independent
example : ∃ m, meshBuilderCone true 65536 16 rotAlignZ {} ⟨exSeg, 2⟩ = .ok (some m) ∧ SphereLike true m := by
  obtain ⟨m, h1, h2, _⟩ := C80_cone true 65536 16 rotAlignZ {} ⟨exSeg, 2⟩ (by decide) (by decide) (by norm_num) exSeg_ne
    (fun _ => exSeg_nonzero) (exSeg_rot _)
  exact ⟨m, h1, h2⟩
example : ∃ m, meshBuilderCylinder true 65536 16 rotAlignZ {} ⟨exSeg, 2⟩ = .ok (some m) ∧ SphereLike true m := by
  obtain ⟨m, h1, h2, _⟩ := C80_cylinder true 65536 16 rotAlignZ {} ⟨exSeg, 2⟩ (by decide) (by decide) (by norm_num) exSeg_ne
    (exSeg_rot _)
  exact ⟨m, h1, h2⟩
example : ∃ m, meshBuilderSphere true 65536 16 exSphere {} ⟨vec3 1 2 3, 5⟩ = .ok m ∧ SphereLike true m :=
  (C80_default_needs_16_bit 16 exSphere ⟨vec3 1 2 3, 5⟩).1 65536 (by decide) (by norm_num)
end Examples
end Verif
