import Verif.Spec.Builds
import Verif.Model.BentleyOttmann
import Verif.Model.Facade
import Verif.Model.RayBox
import Verif.Model.RayBoxIeee
import Verif.Model.Setters
import Verif.Proofs.Res
import Verif.Props.FloatCrossGrid

set_option linter.unusedSectionVars false

/-
C156: debug and release builds return the same.
-/
namespace Verif
open Spec

/-- For the assertions of the library. -/
abbrev SameBuilds {α : Type u} (debug release : Res α) : Prop := SameUnlessStopped Fault.assertFailed debug release

theorem same_refl {α : Type u} {r : Res α} (h : r ≠ .error .assertFailed) : SameBuilds r r := ⟨.inl rfl, h⟩
theorem same_ok {α : Type u} (a : α) : SameBuilds (.ok a : Res α) (.ok a) := same_refl (by simp)
theorem same_pure {α : Type u} (a : α) : SameBuilds (pure a : Res α) (pure a) := same_ok a
theorem same_error {α : Type u} {e : Fault} (h : e ≠ .assertFailed) : SameBuilds (.error e : Res α) (.error e) := same_refl (by simpa using h)
theorem same_assert (c : Bool) : SameBuilds (geoAssert.{u} true c) (geoAssert false c) := by
  cases c
  · exact ⟨.inr rfl, by simp [geoAssert]⟩
  · exact ⟨.inl rfl, by simp [geoAssert]⟩

theorem same_bind {α β : Type u} {d r : Res α} {f g : α → Res β} (h : SameBuilds d r) (hf : ∀ a, SameBuilds (f a) (g a)) :
    SameBuilds (d >>= f) (r >>= g) := by
  obtain ⟨h1 | h1, h2⟩ := h
  · subst h1
    cases d with
    | error e => exact same_error (fun he => h2 (by rw [he]))
    | ok a => exact hf a
  · subst h1
    cases r with
    | error e => exact ⟨.inr rfl, fun he => h2 (by rw [error_bind] at he; simpa using he)⟩
    | ok a => exact ⟨.inr rfl, (hf a).2⟩

theorem same_map {α β : Type u} {d r : Res α} (f : α → β) (h : SameBuilds d r) : SameBuilds (f <$> d) (f <$> r) :=
  same_bind (f := fun a => .ok (f a)) (g := fun a => .ok (f a)) h fun a => same_ok (f a)

theorem same_foldlM {α : Type v} {β : Type u} {f g : β → α → Res β} (h : ∀ b a, SameBuilds (f b a) (g b a)) (l : List α) (b : β) :
    SameBuilds (l.foldlM f b) (l.foldlM g b) := by
  induction l generalizing b with
  | nil => exact same_ok b
  | cons a l ih =>
    rw [List.foldlM_cons, List.foldlM_cons]
    exact same_bind (h b a) fun b' => ih b'

theorem same_vecGet {α : Type u} (l : List α) (i : Nat) : SameBuilds (vecGet l i) (vecGet l i) := by
  unfold vecGet
  split
  · exact same_ok _
  · exact same_error (by simp)

theorem same_vecModify {α : Type u} (l : List α) (i : Nat) (f : α → α) : SameBuilds (vecModify l i f) (vecModify l i f) := by
  unfold vecModify
  split
  · exact same_ok _
  · exact same_error (by simp)

/-- Take a function body apart. -/
macro "same" : tactic => `(tactic| repeat' first
  | intro _
  | assumption
  | exact same_ok _
  | exact same_pure _
  | exact same_assert _
  | exact same_error (by simp)
  | exact same_vecGet _ _
  | exact same_vecModify _ _ _
  | refine same_bind ?_ ?_
  | refine same_map _ ?_
  | refine same_foldlM ?_ _ _
  | split)

section
variable {T : Type} {D : Nat}

theorem same_mk? [Tol T] (lo hi : Vec T D) : SameBuilds (AABB.mk? true lo hi) (AABB.mk? false lo hi) := by unfold AABB.mk?; same
theorem same_extreme [Tol T] [Zero T] [One T] [Add T] [Mul T] [LT T] [DecidableLT T] [HasSqrt T] [HasLimits T] (dir : Vec T D) (points : List (Vec T D)) :
    SameBuilds (extremePointsAlongDirection true dir points) (extremePointsAlongDirection false dir points) := by
  unfold extremePointsAlongDirection; same

/-- **C156** Boxes: construction from two corners or an edge, setters, the intersection and the transformation of boxes, extreme points, and
the box around points. -/
theorem C156_boxes [Tol T] [Zero T] [One T] [Neg T] [Add T] [Mul T] [LT T] [DecidableLT T] [LE T] [DecidableLE T] [HasSqrt T] [HasLimits T]
    (lo hi : Vec T D) (x : T) (ops : List (AABBOp T D)) (b c : AABB T D) (dir : Vec T D) (points : List (Vec T D)) (box : AABB T 3) (m : HMat T)
    (points3 : List (Vec T 3)) :
    SameBuilds (AABB.mk? true lo hi) (AABB.mk? false lo hi) ∧ SameBuilds (AABB.ofExtend true lo x) (AABB.ofExtend false lo x) ∧
    SameBuilds (AABB.history true lo hi ops) (AABB.history false lo hi ops) ∧
    SameBuilds (aabbIntersect true b c) (aabbIntersect false b c) ∧ SameBuilds (transformAABB true box m) (transformAABB false box m) ∧
    SameBuilds (extremePointsAlongDirection true dir points) (extremePointsAlongDirection false dir points) ∧
    SameBuilds (makeAABB true points3) (makeAABB false points3) := by
  have h1 := same_mk? (T := T) (D := D)
  have h2 := same_mk? (T := T) (D := 3)
  have h3 := same_extreme (T := T) (D := 3)
  refine ⟨same_mk? _ _, ?_, ?_, ?_, same_mk? _ _, same_extreme _ _, ?_⟩
  · unfold AABB.ofExtend; same
  · unfold AABB.history; exact same_bind (h1 _ _) fun b => same_ok _
  · unfold aabbIntersect
    split
    · exact h1 _ _
    · exact same_ok _
  · unfold makeAABB
    exact same_bind (same_assert _) fun _ => same_bind (h3 _ _) fun _ => same_bind (h3 _ _) fun _ => same_bind (h3 _ _) fun _ => h2 _ _

/-- **C156** Circles and rays: construction, setters and transformation. -/
theorem C156_shapes [Tol T] [Zero T] [One T] [Add T] [Mul T] [Div T] [LT T] [DecidableLT T] [LE T] [DecidableLE T] [HasSqrt T]
    (o2 : Vec T 2) (x : T) (ops2 : List (Circle2Op T)) (c2 : Circle2 T) (m : HMat T) (o3 n3 : Vec T 3) (ops3 : List (Circle3Op T)) (o d : Vec T D)
    (rops : List (RayOp T D)) :
    SameBuilds (Circle2.history true o2 x ops2) (Circle2.history false o2 x ops2) ∧
    SameBuilds (transformCircle2 true c2 m) (transformCircle2 false c2 m) ∧
    SameBuilds (Circle3.history true o3 x n3 ops3) (Circle3.history false o3 x n3 ops3) ∧
    SameBuilds (Ray.make true o d) (Ray.make false o d) ∧ SameBuilds (Ray.history true o d rops) (Ray.history false o d rops) := by
  refine ⟨?_, ?_, ?_, ?_, ?_⟩
  · unfold Circle2.history Circle2.make
    refine same_bind (by same) fun c => same_foldlM (fun c op => ?_) _ _
    cases op <;> (simp only [Circle2.apply, Circle2.setRadius]; same)
  · unfold transformCircle2 Circle2.make; same
  · unfold Circle3.history
    refine same_foldlM (fun c op => ?_) _ _
    cases op <;> (simp only [Circle3.apply, Circle3.setRadius, Circle3.setNormal]; same)
  · unfold Ray.make; same
  · unfold Ray.history Ray.make; same

theorem same_segment2 [Zero T] [One T] [Add T] [Sub T] [Mul T] [Div T] [Neg T] [DecidableEq T] [Tol T] (f g : Segment T 2) (eps : T) :
    SameBuilds (intersectSegment2 true f g eps) (intersectSegment2 false f g eps) := by
  unfold intersectSegment2; dsimp only; same

/-- **C156** The distance of two lines, the intersections of two segments of the plane and of a ray and a box, and the sweep line over any
events in any order. -/
theorem C156_intersections [Zero T] [One T] [Add T] [Sub T] [Mul T] [Div T] [Neg T] [LT T] [DecidableLT T] [DecidableEq T] [HasSqrt T] [HasLimits T] [HasInf T]
    [Tol T] (l l' : Line T 3) (f g : Segment T 2) (eps : T) (ray : Ray T 3) (box : AABB T 3) (o : StatusSearch) (segs : List (Segment T 2))
    (es : List (BOEvent T)) :
    SameBuilds (distLineLine true l l') (distLineLine false l l') ∧ SameBuilds (intersectSegment2 true f g eps) (intersectSegment2 false f g eps) ∧
    SameBuilds (intersectRayBox true ray box) (intersectRayBox false ray box) ∧
    SameBuilds (intersectRayBoxRaw true ray box) (intersectRayBoxRaw false ray box) ∧
    SameBuilds (bentleyOttmann true o segs es) (bentleyOttmann false o segs es) := by
  refine ⟨?_, same_segment2 _ _ _, ?_, ?_, ?_⟩
  · unfold distLineLine
    refine same_bind (same_assert _) fun _ => same_bind (same_assert _) fun _ => ?_
    dsimp only
    split <;> exact same_ok _
  · unfold intersectRayBox ordinateToPoint; dsimp only; same
  · unfold intersectRayBoxRaw ordinateToPointRaw; dsimp only; same
  · have hr : ∀ i j pts, SameBuilds (boReport true segs i j pts) (boReport false segs i j pts) := fun i j pts => by
      unfold boReport
      refine same_bind (same_vecGet _ _) fun si => same_bind (same_vecGet _ _) fun sj => same_bind (same_segment2 _ _ _) fun p => ?_
      same
    unfold bentleyOttmann
    refine same_bind (same_foldlM (fun st e => ?_) _ _) fun st => same_ok _
    have ho : ∀ i j pts, SameBuilds (boReportOpt true segs i j pts) (boReportOpt false segs i j pts) := fun i j pts => by
      cases j
      · exact same_ok _
      · exact hr _ _ _
    have hb : ∀ i j pts, SameBuilds (boReportBoth true segs i j pts) (boReportBoth false segs i j pts) := fun i j pts => by
      cases i <;> cases j
      · exact same_ok _
      · exact same_ok _
      · exact same_ok _
      · exact hr _ _ _
    unfold boStep
    split
    · exact same_bind (same_vecGet _ _) fun it => same_bind (ho _ _ _) fun p => same_bind (ho _ _ _) fun q => same_ok _
    · split
      · exact same_ok _
      · exact same_bind (hb _ _ _) fun p => same_ok _
end

section
variable {V : Type}

theorem same_pointsContains [BEq V] (M : Nat) (pts : List V) (v : V) : SameBuilds (pointsContains M pts v) (pointsContains M pts v) := by
  unfold pointsContains; same

theorem same_createOrFind [BEq V] (M : Nat) (m : HalfedgeMesh V) (p : V) : SameBuilds (createOrFindVertex true M m p) (createOrFindVertex false M m p) := by
  unfold createOrFindVertex
  refine same_bind (same_pointsContains _ _ _) fun r => ?_
  same

theorem same_addCorner (M : Nat) (s : HalfedgeMesh V × Nat) (first : Bool) (v : Nat) : SameBuilds (addCorner true M s first v) (addCorner false M s first v) := by
  unfold addCorner; dsimp only; same

theorem same_linkTriangle (M facetIdx : Nat) (hes : List Halfedge) : SameBuilds (linkTriangle M facetIdx hes) (linkTriangle M facetIdx hes) := by
  unfold linkTriangle linkOne; dsimp only; same

theorem same_addTriangle [BEq V] (M : Nat) (m : HalfedgeMesh V) (t : V × V × V) : SameBuilds (addTriangle true M m t) (addTriangle false M m t) := by
  unfold addTriangle
  exact same_bind (same_createOrFind _ _ _) fun _ => same_bind (same_createOrFind _ _ _) fun _ => same_bind (same_createOrFind _ _ _) fun _ =>
    same_bind (same_assert _) fun _ => same_bind (same_addCorner _ _ _ _) fun _ => same_bind (same_addCorner _ _ _ _) fun _ =>
    same_bind (same_addCorner _ _ _ _) fun _ => same_bind (same_assert _) fun _ => same_bind (same_assert _) fun _ =>
    same_bind (same_linkTriangle _ _ _) fun _ => same_ok _

theorem same_asserted {r : Res Bool} (h : r ≠ .error .assertFailed) : SameBuilds (assertedValid true r) (assertedValid false r) := by
  unfold assertedValid
  exact same_bind (same_refl h) fun _ => same_bind (same_assert _) fun _ => same_ok _

theorem same_allValid {α : Type} {f g : α → Res Bool} (h : ∀ a, SameBuilds (f a) (g a)) (l : List α) : SameBuilds (allValid f l) (allValid g l) := by
  induction l with
  | nil => exact same_ok _
  | cons a l ih =>
    refine same_bind (h a) fun b => ?_
    cases b
    · exact same_ok _
    · exact ih

theorem same_halfedgeValid (M : Nat) (m : HalfedgeMesh V) (h : Halfedge) : SameBuilds (halfedgeValidImpl M m h) (halfedgeValidImpl M m h) := by
  unfold halfedgeValidImpl HalfedgeMesh.heVertex HalfedgeMesh.heOpposite HalfedgeMesh.heNext HalfedgeMesh.hePrev; same

/-- **C156** Adding a triangle to any mesh, asking whether a mesh is valid and its line indices, whatever the equality of points does. -/
theorem C156_mesh [BEq V] (M MU : Nat) (m : HalfedgeMesh V) (t : V × V × V) (ts : List (V × V × V)) :
    SameBuilds (addTriangle true M m t) (addTriangle false M m t) ∧ SameBuilds (addTriangles true M ts) (addTriangles false M ts) ∧
    SameBuilds (m.isValid true M) (m.isValid false M) ∧ SameBuilds (calcLineIndices true MU m) (calcLineIndices false MU m) := by
  refine ⟨same_addTriangle _ _ _, same_foldlM (same_addTriangle M) _ _, ?_, ?_⟩
  · unfold HalfedgeMesh.isValid
    refine same_bind (same_allValid (fun v => same_asserted (by simp)) _) fun bv => ?_
    split
    · exact same_ok _
    refine same_bind (same_allValid (fun h => same_asserted (same_halfedgeValid M m h).2) _) fun bh => ?_
    split
    · exact same_ok _
    exact same_allValid (fun f => same_asserted (by simp)) _
  · unfold calcLineIndices edgeCreate HalfedgeMesh.heNext; same
end

section
variable {T : Type} [Zero T] [Add T] [Sub T] [Mul T] [Neg T] [HasSqrt T] [LT T] [DecidableLT T] [BEq (Vec T 3)]

theorem same_nearestPath {P : Type} {D w : Nat} [NeZero D] (kd : KdTree T D P w) (q : Vec T D) : SameBuilds (kd.nearestPath q) (kd.nearestPath q) := by
  unfold KdTree.nearestPath; same

theorem same_nearest {P : Type} {D w : Nat} [NeZero D] (kd : KdTree T D P w) (q : Vec T D) : SameBuilds (kd.nearest q) (kd.nearest q) := by
  have h := (same_nearestPath kd q).2
  unfold KdTree.nearest
  cases hp : kd.nearestPath q with
  | error e => exact same_error (fun he => h (by rw [hp, he]))
  | ok path => dsimp only; same

theorem same_modifyNearest {P : Type} {D w : Nat} [NeZero D] (kd : KdTree T D P w) (q : Vec T D) (f : P → P) :
    SameBuilds (kd.modifyNearest q f) (kd.modifyNearest q f) := by
  have h := (same_nearestPath kd q).2
  unfold KdTree.modifyNearest
  cases hp : kd.nearestPath q with
  | error e => exact same_error (fun he => h (by rw [hp, he]))
  | ok path => exact same_ok _

theorem same_heVector {V : Type} (m : HalfedgeMesh V) (h : Halfedge) : SameBuilds (m.heVector h) (m.heVector h) := by
  unfold HalfedgeMesh.heVector HalfedgeMesh.heVertex HalfedgeMesh.vector; same

theorem same_heNextVector {V : Type} (m : HalfedgeMesh V) (h : Halfedge) : SameBuilds (m.heNextVector h) (m.heNextVector h) := by
  unfold HalfedgeMesh.heNextVector HalfedgeMesh.heNextVertex HalfedgeMesh.heNext HalfedgeMesh.heVertex HalfedgeMesh.vector; same

theorem same_findOpposite (m : HalfedgeMesh (Vec T 3)) (start : Vec T 3) (l : List Nat) : SameBuilds (findOpposite m start l) (findOpposite m start l) := by
  induction l with
  | nil => exact same_ok _
  | cons j js ih =>
    refine same_bind (same_vecGet _ _) fun c => same_bind (same_heNextVector _ _) fun v => ?_
    split
    · exact same_ok _
    · exact ih

theorem same_opposites (w : Nat) (m : HalfedgeMesh (Vec T 3)) : SameBuilds (setOppositeHalfedges true w m) (setOppositeHalfedges false w m) := by
  unfold setOppositeHalfedges
  refine same_bind (same_foldlM (fun kd i => ?_) _ _) fun kd => same_foldlM (fun m k => ?_) _ _
  · unfold oppositeIndexRound
    refine same_bind (same_vecGet _ _) fun h => same_bind (same_heVector _ _) fun start => ?_
    split
    · exact same_modifyNearest _ _ _
    · exact same_ok _
  · unfold oppositeSetRound
    refine same_bind (same_vecGet _ _) fun he => same_bind (same_heNextVector _ _) fun start => same_bind (same_heVector _ _) fun e =>
      same_bind (same_nearest _ _) fun result => same_bind (same_findOpposite _ _ _) fun found => ?_
    split
    · exact same_bind (same_assert _) fun _ => same_ok _
    · exact same_bind (same_vecGet _ _) fun c => same_ok _

theorem same_builderPoint [One T] [BEq (HMat T)] (trafo : HMat T) (points : List (Vec T 3)) (idx : Nat) :
    SameBuilds (builderPoint trafo points idx) (builderPoint trafo points idx) := by
  unfold builderPoint; same

theorem same_buildTriangle [One T] [BEq (HMat T)] (M w : Nat) (trafo : HMat T) (points : List (Vec T 3)) (is : List Nat) :
    SameBuilds (buildTriangleHalfedgeMesh true M w trafo points is) (buildTriangleHalfedgeMesh false M w trafo points is) := by
  unfold buildTriangleHalfedgeMesh
  refine same_bind (same_assert _) fun _ => same_bind (same_assert _) fun _ => same_bind (same_foldlM (fun m k => ?_) _ _) fun m => same_opposites _ _
  unfold builderRound
  exact same_bind (same_vecGet _ _) fun _ => same_bind (same_builderPoint _ _ _) fun _ => same_bind (same_vecGet _ _) fun _ =>
    same_bind (same_builderPoint _ _ _) fun _ => same_bind (same_vecGet _ _) fun _ => same_bind (same_builderPoint _ _ _) fun _ => same_addTriangle _ _ _

theorem same_buildMesh (M w : Nat) (ts : List (Vec T 3 × Vec T 3 × Vec T 3)) : SameBuilds (buildMesh true M w ts) (buildMesh false M w ts) :=
  same_bind (same_foldlM (same_addTriangle M) _ _) fun _ => same_opposites _ _

/-- **C156** Linking the half-edges of any mesh, building a mesh from triangles and from an index buffer. -/
theorem C156_build [One T] [BEq (HMat T)] (M w : Nat) (m : HalfedgeMesh (Vec T 3)) (ts : List (Vec T 3 × Vec T 3 × Vec T 3)) (trafo : HMat T)
    (points : List (Vec T 3)) (is : List Nat) :
    SameBuilds (setOppositeHalfedges true w m) (setOppositeHalfedges false w m) ∧ SameBuilds (buildMesh true M w ts) (buildMesh false M w ts) ∧
    SameBuilds (buildTriangleHalfedgeMesh true M w trafo points is) (buildTriangleHalfedgeMesh false M w trafo points is) :=
  ⟨same_opposites _ _, same_buildMesh _ _ _, same_buildTriangle _ _ _ _ _⟩
end

section
variable {T : Type} [Zero T] [One T] [Add T] [Sub T] [Mul T] [Div T] [Neg T] [OfNat T 2] [NatCast T] [HasSqrt T] [HasTrig T] [LT T]
  [DecidableLT T] [BEq (HMat T)] [BEq (Vec T 3)]

theorem same_circle (M : Nat) (c : Vec T 3) (r : T) (n : Nat) (dir : CircleDir) (k : Nat) :
    SameBuilds (calcCircleTriangles M c r n dir k) (calcCircleTriangles M c r n dir k) := by
  unfold calcCircleTriangles loopIncl; same

theorem same_coneTriangles (M : Nat) (r h : T) (n : Nat) : SameBuilds (calcConeTriangles M r h n) (calcConeTriangles M r h n) := by
  unfold calcConeTriangles
  refine same_bind (same_circle _ _ _ _ _ _) fun c => ?_
  unfold loopIncl
  same

theorem same_cylinderTriangles (M : Nat) (r h : T) (n : Nat) : SameBuilds (calcCylinderTriangles true M r h n) (calcCylinderTriangles false M r h n) := by
  unfold calcCylinderTriangles
  exact same_bind (same_circle _ _ _ _ _ _) fun b => same_bind (same_circle _ _ _ _ _ _) fun t => same_bind (same_assert _) fun _ =>
    same_bind (same_assert _) fun _ => same_bind (same_assert _) fun _ => same_ok _

theorem same_sphereBuild (M w : Nat) (b : SphereBuilder T) : SameBuilds (b.build true M w) (b.build false M w) :=
  same_bind (same_buildTriangle _ _ _ _ _) fun _ => same_ok _

theorem same_cuboidBuild (M w : Nat) (b : CuboidBuilder T) : SameBuilds (b.build true M w) (b.build false M w) :=
  same_bind (same_buildMesh _ _ _) fun _ => same_bind (same_assert _) fun _ => same_bind (same_assert _) fun _ => same_ok _

theorem same_coneBuild [Tol T] (M w : Nat) (rotAlign : Vec T 4 → Vec T 4 → HMat T) (b : ConeBuilder T) :
    SameBuilds (b.build true M w rotAlign) (b.build false M w rotAlign) := by
  unfold ConeBuilder.build
  refine same_bind (same_assert _) fun _ => ?_
  split
  · exact same_ok _
  · exact same_bind (same_assert _) fun _ => same_bind (same_assert _) fun _ => same_bind (same_coneTriangles _ _ _ _) fun c =>
      same_bind (same_buildTriangle _ _ _ _ _) fun _ => same_ok _

theorem same_cylinderBuild (M w : Nat) (rotAlign : Vec T 4 → Vec T 4 → HMat T) (b : CylinderBuilder T) :
    SameBuilds (b.build true M w rotAlign) (b.build false M w rotAlign) := by
  unfold CylinderBuilder.build
  refine same_bind (same_assert _) fun _ => ?_
  split
  · exact same_ok _
  · exact same_bind (same_cylinderTriangles _ _ _ _) fun c => same_bind (same_buildTriangle _ _ _ _ _) fun _ => same_ok _

/-- **C156** Any sequence of calls on a builder of spheres, cuboids, cones or cylinders. -/
theorem C156_sessions [Tol T] (M w : Nat) (rotAlign : Vec T 4 → Vec T 4 → HMat T) (sc : List (SphereCall T)) (sb : SphereBuilder T)
    (qc : List (CuboidCall T)) (qb : CuboidBuilder T) (cc : List (ConeCall T)) (cb : ConeBuilder T) (yc : List (CylinderCall T)) (yb : CylinderBuilder T) :
    SameBuilds (SphereBuilder.session true M w sc sb) (SphereBuilder.session false M w sc sb) ∧
    SameBuilds (CuboidBuilder.session true M w qc qb) (CuboidBuilder.session false M w qc qb) ∧
    SameBuilds (ConeBuilder.session true M w rotAlign cc cb) (ConeBuilder.session false M w rotAlign cc cb) ∧
    SameBuilds (CylinderBuilder.session true M w rotAlign yc yb) (CylinderBuilder.session false M w rotAlign yc yb) := by
  refine ⟨?_, ?_, ?_, ?_⟩
  · induction sc generalizing sb with
    | nil => exact same_ok _
    | cons c cs ih =>
      cases c <;> simp only [SphereBuilder.session]
      case build => exact same_bind (same_sphereBuild _ _ _) fun r => same_bind (ih _) fun ms => same_ok _
      all_goals exact ih _
  · induction qc generalizing qb with
    | nil => exact same_ok _
    | cons c cs ih =>
      cases c <;> simp only [CuboidBuilder.session]
      case build => exact same_bind (same_cuboidBuild _ _ _) fun r => same_bind (ih _) fun ms => same_ok _
      all_goals exact ih _
  · induction cc generalizing cb with
    | nil => exact same_ok _
    | cons c cs ih =>
      cases c <;> simp only [ConeBuilder.session]
      case build => exact same_bind (same_coneBuild _ _ _ _) fun r => same_bind (ih _) fun ms => same_ok _
      all_goals exact ih _
  · induction yc generalizing yb with
    | nil => exact same_ok _
    | cons c cs ih =>
      cases c <;> simp only [CylinderBuilder.session]
      case build => exact same_bind (same_cylinderBuild _ _ _ _) fun r => same_bind (ih _) fun ms => same_ok _
      all_goals exact ih _

/-- **C156** `MeshBuilder`, and the builders of cones and cylinders with or without a shape. -/
theorem C156_facade [Tol T] (M w : Nat) (rotAlign : Vec T 4 → Vec T 4 → HMat T) (cfg : MeshBuilderConfig) (sb : SphereBuilder T) (s : Sphere T)
    (qb : CuboidBuilder T) (q : Cuboid T) (c : Option (Cone T)) (y : Option (Cylinder T)) (n : Nat) :
    SameBuilds (meshBuilderSphere true M w sb cfg s) (meshBuilderSphere false M w sb cfg s) ∧
    SameBuilds (meshBuilderCuboid true M w qb q) (meshBuilderCuboid false M w qb q) ∧
    SameBuilds (coneBuild true M w rotAlign c n) (coneBuild false M w rotAlign c n) ∧
    SameBuilds (cylinderBuild true M w rotAlign y n) (cylinderBuild false M w rotAlign y n) := by
  refine ⟨same_bind (same_sphereBuild _ _ _) fun r => same_ok _, same_bind (same_cuboidBuild _ _ _) fun r => same_ok _, ?_, ?_⟩
  · unfold coneBuild
    refine same_bind (same_assert _) fun _ => ?_
    split
    · exact same_ok _
    · exact same_bind (same_assert _) fun _ => same_bind (same_assert _) fun _ => same_bind (same_coneTriangles _ _ _ _) fun c =>
        same_bind (same_buildTriangle _ _ _ _ _) fun _ => same_ok _
  · unfold cylinderBuild
    refine same_bind (same_assert _) fun _ => ?_
    split
    · exact same_ok _
    · exact same_bind (same_cylinderTriangles _ _ _ _) fun c => same_bind (same_buildTriangle _ _ _ _ _) fun _ => same_ok _
end

/-- What a debug build returns, the release build returns. -/
theorem same_value {α : Type u} {d r : Res α} (h : SameBuilds d r) {a : α} (ha : d = .ok a) : r = .ok a := by
  rcases h.1 with h1 | h1
  · rw [← h1, ha]
  · rw [ha] at h1; cases h1

section Examples
/-- Integers as coordinates. -/
local instance builds1 : Tol ℤ := ⟨0, fun a b _ => a < b, fun a b _ => b < a, fun a b _ => a ≤ b, fun a b _ => b ≤ a, fun a b _ => a == b, fun a _ => a == 0⟩
local instance builds2 : HasSqrt ℤ := ⟨fun x => Int.sqrt x⟩
local instance builds3 : HasLimits ℤ := ⟨1000, -1000⟩
local instance builds4 : HasTrig ℤ := ⟨fun _ => 1, fun _ => 0, fun _ => 0, 3⟩
local instance builds5 : BEq (Vec ℤ 3) := ⟨fun a b => a 0 == b 0 && a 1 == b 1 && a 2 == b 2⟩
local instance builds6 : BEq (HMat ℤ) := ⟨fun a b => forallFin 4 fun i => forallFin 4 fun j => a i j == b i j⟩

/-- An inverted box: the debug build stops, the release build makes it. -/
example : SameBuilds (AABB.mk? true ![3, 3] ![1, (1 : ℤ)]) (AABB.mk? false ![3, 3] ![1, 1]) ∧
    AABB.mk? true ![3, 3] ![1, (1 : ℤ)] = .error .assertFailed ∧ AABB.mk? false ![3, 3] ![1, (1 : ℤ)] = .ok ⟨![3, 3], ![1, 1]⟩ :=
  ⟨(C156_boxes _ _ 0 [] ⟨0, 0⟩ ⟨0, 0⟩ 0 [] ⟨0, 0⟩ (fun _ _ => 0) []).1, rfl, rfl⟩

/-- A ray without direction: only the debug build refuses it. -/
example : SameBuilds (Ray.make true ![3, 3] ![0, (0 : ℤ)]) (Ray.make false ![3, 3] ![0, 0]) ∧
    Ray.make true ![3, 3] ![0, (0 : ℤ)] = .error .assertFailed :=
  ⟨(C156_shapes 0 0 [] ⟨0, 0⟩ (fun _ _ => 0) 0 0 [] _ _ []).2.2.2.1, rfl⟩

/-- A mesh of one triangle: the debug build stops when asked whether it is valid, the release build says no. -/
example (m : HalfedgeMesh ℕ) (hm : m = ⟨[5, 6, 7], [⟨0, [0]⟩, ⟨1, [1]⟩, ⟨2, [2]⟩], [⟨0, 0, 0, 1, 2, 15⟩, ⟨1, 0, 1, 2, 0, 15⟩, ⟨2, 0, 2, 0, 1, 15⟩], [⟨0⟩]⟩) :
    SameBuilds (m.isValid true 16) (m.isValid false 16) ∧ m.isValid true 16 = .error .assertFailed ∧ m.isValid false 16 = .ok false := by
  refine ⟨(C156_mesh 16 16 m (0, 0, 0) []).2.2.1, ?_, ?_⟩
  · rw [hm]; rfl
  · rw [hm]; rfl

/-- An index out of range: both builds read it. -/
example : SameBuilds (buildTriangleHalfedgeMesh true 256 8 hmatIdentity [vec3 0 0 (0 : ℤ)] [0, 0, 7])
      (buildTriangleHalfedgeMesh false 256 8 hmatIdentity [vec3 0 0 0] [0, 0, 7]) ∧
    buildTriangleHalfedgeMesh true 256 8 hmatIdentity [vec3 0 0 (0 : ℤ)] [0, 0, 7] = .error .outOfRange :=
  ⟨(C156_build 256 8 HalfedgeMesh.empty [] _ _ _).2.2, rfl⟩

/-- A builder without a cone. -/
example : SameBuilds (ConeBuilder.session true 256 8 (fun _ _ => hmatIdentity) [.setAzimuthCount 5, .build] (ConeBuilder.init : ConeBuilder ℤ))
      (ConeBuilder.session false 256 8 (fun _ _ => hmatIdentity) [.setAzimuthCount 5, .build] ConeBuilder.init) ∧
    ConeBuilder.session true 256 8 (fun _ _ => hmatIdentity) [.setAzimuthCount 5, .build] (ConeBuilder.init : ConeBuilder ℤ) = .error .assertFailed ∧
    ConeBuilder.session false 256 8 (fun _ _ => hmatIdentity) [.setAzimuthCount 5, .build] (ConeBuilder.init : ConeBuilder ℤ) = .ok [none] :=
  ⟨(C156_sessions 256 8 _ [] ⟨3, 3, 0, 0, none⟩ [] ⟨none, 0, 0⟩ _ _ [] CylinderBuilder.init).2.2.1, rfl, rfl⟩

example : SameBuilds (coneBuild true 256 8 (fun _ _ => hmatIdentity) (none : Option (Cone ℤ)) 5) (coneBuild false 256 8 (fun _ _ => hmatIdentity) none 5) ∧
    coneBuild false 256 8 (fun _ _ => hmatIdentity) (none : Option (Cone ℤ)) 5 = .ok none :=
  ⟨(C156_facade 256 8 _ {} ⟨3, 3, 0, 0, none⟩ ⟨0, 0⟩ ⟨none, 0, 0⟩ ⟨0, fun _ => 0⟩ _ none 5).2.2.1, rfl⟩

end Examples

section Examples
attribute [local instance] tol64
noncomputable local instance builds7 : HasLimits (Fl binary64) := ⟨0, 0⟩
noncomputable local instance builds8 : HasInf (Fl binary64) := ⟨0⟩

/-- Segments on which the debug build stops (C98): the release build returns. -/
example : SameBuilds (intersectSegment2 true (⟨pt64 0 0, pt64 49 0⟩ : Segment (Fl binary64) 2) ⟨pt64 1 (-1), pt64 1 1⟩)
    (intersectSegment2 false ⟨pt64 0 0, pt64 49 0⟩ ⟨pt64 1 (-1), pt64 1 1⟩) :=
  (C156_intersections ⟨0, 0⟩ ⟨0, 0⟩ _ _ _ ⟨0, 0⟩ ⟨0, 0⟩ ⟨fun _ _ => (0, false), fun _ _ => (0, false)⟩ [] []).2.1
end Examples
end Verif
