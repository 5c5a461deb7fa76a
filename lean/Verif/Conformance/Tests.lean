import Verif.Model.RayBox
import Verif.Model.Interval
import Verif.Model.BentleyOttmann
import Verif.Model.Facade
import Verif.Model.MeshNormals
import Verif.Model.DebugPrint

/-
The unit tests of `/repo/tests`, run on the model.

These are tests and not proofs: nothing else in this project depends on them.  They check that the model behaves as the
code does where its authors wrote down what it does.  The model functions are the ones the theorems are about, instantiated
with Lean's `Float` (IEEE binary64, the `double` of the C++ tests; the tests with `float` use numbers that both
formats represent) or, where a decidable equality of coordinates is needed, with `Rat`.

`EXPECT_EQ` of two vectors calls `vec::operator==` of the external library.  `same` is equality of all components and `near` is
equality up to the tolerance.  Every expectation holds with `near`.  With `same` all hold but three (marked below), for which double
precision arithmetic gives a result that is off in the last place.  So the tests only pass if `vec::operator==` is a comparison with
tolerance; what that means for k-d trees and meshes is the subject of C143 and C144.
-/
namespace Verif.Conformance

local instance : Zero Float := ⟨0.0⟩
local instance : One Float := ⟨1.0⟩
local instance : NatCast Float := ⟨Float.ofNat⟩
local instance : HasSqrt Float := ⟨Float.sqrt⟩
local instance : HasTrig Float := ⟨Float.cos, Float.sin, Float.atan, 3.14159265358979323846⟩
local instance : HasLimits Float := ⟨1.7976931348623157e308, -1.7976931348623157e308⟩
/-- The value of `linal::eps_f64` is not known; any small value gives the same results. -/
local instance : Tol Float where
  eps := 1e-10
  isLess a b e := a + e < b
  isGreater a b e := b + e < a
  isLessEq a b e := !decide (b + e < a)
  isGreaterEq a b e := !decide (a + e < b)
  isEq a b e := !decide (b + e < a) && !decide (a + e < b)
  isZero a e := !decide (e < a) && !decide (a + e < 0)
local instance : Tol Rat where
  eps := 1 / 10000000000
  isLess a b e := a + e < b
  isGreater a b e := b + e < a
  isLessEq a b e := !decide (b + e < a)
  isGreaterEq a b e := !decide (a + e < b)
  isEq a b e := !decide (b + e < a) && !decide (a + e < b)
  isZero a e := !decide (e < a) && !decide (a + e < 0)

def v3 {T : Type} (a b c : T) : Vec T 3 := vec3 a b c
def v2 {T : Type} (a b : T) : Vec T 2 := fun i => if i = 0 then a else b
def O : Vec Float 3 := v3 0 0 0
def X : Vec Float 3 := v3 1 0 0
def Y : Vec Float 3 := v3 0 1 0
def Z : Vec Float 3 := v3 0 0 1
def neg (v : Vec Float 3) : Vec Float 3 := fun i => -v i

/-- Equality of all components. -/
def same {T : Type} [BEq T] {D : Nat} (u v : Vec T D) : Bool := forallFin D fun i => u i == v i
/-- Equality up to the tolerance. -/
def near {D : Nat} (u v : Vec Float D) : Bool := isEqualVec u v
def sameO {T : Type} [BEq T] {D : Nat} (u : Option (Vec T D)) (v : Vec T D) : Bool := u.any fun u => same u v
def nearO {D : Nat} (u : Option (Vec Float D)) (v : Vec Float D) : Bool := u.any fun u => near u v
def ok {α : Type} (r : Res α) (p : α → Bool) : Bool := match r with | .ok a => p a | .error _ => false
/-- `EXPECT_DOUBLE_EQ` (within four units in the last place). -/
def deq (a b : Float) : Bool := (a - b).abs ≤ 4 * 2.3e-16 * b.abs

local instance : BEq (Vec Float 3) := ⟨near⟩
local instance : BEq (HMat Float) := ⟨fun a b => forallFin 4 fun i => forallFin 4 fun j => a i j == b i j⟩

/-! ### `GeomVecOperationsTest.cpp` -/
#guard deq (dot O O) 0
#guard deq (dot (v3 1 1 1 : Vec Float 3) (v3 1 1 1)) 3
#guard deq (length O) 0
#guard deq (length (v3 1 1 1 : Vec Float 3)) (Float.sqrt 3)
#guard same (projection (v3 1 0 1 : Vec Float 3) (v3 5 0 0)) (v3 1 0 0)
#guard same (projection (v3 (-2) 0 1 : Vec Float 3) X) (v3 (-2) 0 0)
#guard same (projection (v3 2 0 1 : Vec Float 3) (v3 5 0 0)) (v3 2 0 0)
#guard same (rejection (v3 1 0 1 : Vec Float 3) X) (v3 0 0 1)
#guard same (rejection O X) O
#guard same (rejection (v3 3 0 9 : Vec Float 3) X) (v3 0 0 9)

/-! ### `LineTest.cpp`, `RayTest.cpp`, `PlaneTest.cpp`, `SegmentTest.cpp` -/
#guard same (Line.make O (v3 2 0 0)).direction X
#guard ok (Ray.make true O (v3 2 0 0)) fun r => same r.direction X
#guard same (Plane.make O (v3 0 0 2)).normal Z
#guard (⟨O, v3 3 0 0⟩ : Segment Float 3).length == 3
#guard same (⟨O, v3 3 0 0⟩ : Segment Float 3).direction X

/-! ### `ConeTest.cpp`, `SphereTest.cpp` -/
def cone1 : Cone Float := ⟨⟨O, Z⟩, 1⟩
#guard deq cone1.height 1
#guard deq cone1.slantHeight (Float.sqrt 2)
#guard deq cone1.openingAngle (90 * 3.14159265358979323846 / 180)
#guard (⟨O, 1⟩ : Sphere Float).contains (v3 0.5 0 0)
#guard (⟨O, 1⟩ : Sphere Float).contains (v3 1 0 0)
#guard !(⟨O, 1⟩ : Sphere Float).contains (v3 1.5 0 0)

/-! ### `KdTreeTest.cpp`, `KdTreeMapTest.cpp` -/
abbrev Tree := KdTree Float 3 Nat 64
def tree (l : List (Vec Float 3 × Nat)) : Tree := l.foldl (fun t p => (t.insert p.1 p.2).1) KdTree.empty
def three : Tree := tree [(O, 0), (v3 1 1 1, 1), (v3 2 2 2, 2)]
#guard (tree []).getSize == 0
#guard (tree []).isEmpty
#guard !(tree []).search O
#guard match (tree []).nearest O with | .error .exception => true | _ => false
#guard (tree [(O, 0)]).getSize == 1
#guard (tree [(O, 0), (O, 1)]).getSize == 1
#guard three.getSize == 3
#guard three.search (v3 1 1 1)
#guard !three.search (v3 3 3 3)
#guard ok (three.nearest (v3 3 3 3)) fun r => same r.1 (v3 2 2 2) && r.2 == 2
#guard ok (three.nearest O) fun _ => true

/-! ### `AABBTest.cpp` -/
def box (m : Vec Float 3) (e : Float) : AABB Float 3 := ⟨m, fun i => m i + e⟩
def unitBox : AABB Float 3 := box O 1
#guard !(AABB.default : AABB Float 3).isValid
#guard ok (makeAABB true [O, X, Y, Z, v3 1 1 1]) fun b => same b.min O && same b.max (v3 1 1 1)
#guard ok (makeAABB true [v3 1 1 1, v3 (-1) (-1) (-1)]) fun b => same b.center O
#guard (AABB.default : AABB Float 3).isEmpty
#guard ok (AABB.ofExtend true O 1) fun b => !b.isEmpty
#guard (unitBox.add (v3 0.5 0.5 0.5)).beq unitBox
#guard !(unitBox.add (v3 1.5 1.5 1.5)).beq unitBox
#guard (unitBox.add (v3 1.5 1.5 1.5)).beq (box O 1.5)
#guard (unitBox.add (v3 1 1 1)).beq unitBox
#guard (unitBox.addBox (box (v3 0.5 0.5 0.5) 0.1)).beq unitBox
#guard !(unitBox.addBox (box (v3 1 1 1) 1)).beq unitBox
#guard (unitBox.addBox (box (v3 1 1 1) 1)).beq (box O 2)

/-! ### `Distance/DistanceSegmentTest.cpp`, `Distance/DistanceSegmentRayTest.cpp` -/
def seg1 : Segment Float 3 := ⟨O, X⟩
#guard [(O, 0), (X, 0), (Y, 1), (v3 1 1 0, 1), (v3 0.5 0 0, 0), (v3 (-3) 0 0, 3), (v3 3 0 0, 2), (v3 0.5 3 0, 3), (v3 0.5 (-3) 0, 3)].all
  fun (p : Vec Float 3 × Float) => deq (distSegmentVec seg1 p.1) p.2
#guard [(v3 (-1) 0 1, neg X, 1.4142135623730951), (v3 (-1) 0 1, X, 1), (v3 0.5 0 1, X, 1), (v3 2 0 1, neg X, 1),
    (v3 2 0 1, X, 1.4142135623730951), (v3 (-1) 0 0, neg X, 1), (v3 (-1) 0 0, X, 0), (O, neg X, 0), (v3 0.5 0 0, X, 0), (X, X, 0),
    (v3 1.5 0 0, X, 0.5), (v3 1.5 0 0, neg X, 0), (v3 (-2) 0 0, Y, 2), (O, Y, 0), (v3 0.6 0 0, Y, 0), (X, Y, 0), (v3 5 0 0, Y, 4),
    (v3 0.5 1 0, Y, 1), (v3 0.5 (-1) 0, Y, 0), (v3 0.5 (-1) 2, Y, 2)].all
  fun (p : Vec Float 3 × Vec Float 3 × Float) => ok (Ray.make true p.1 p.2.1) fun r => ok (distSegmentRay seg1 r) fun d => deq d p.2.2

/-! ### `Distance/DistanceRayTest.cpp`, `Distance/DistanceRayLineTest.cpp` -/
def dRay (o d v : Vec Float 3) (e : Float) : Bool := ok (Ray.make true o d) fun r => deq (distRayVec r v) e
#guard dRay (v3 1 1 1) X (v3 1 1 1) 0
#guard dRay X X O 1
#guard dRay X X (v3 2 0 0) 0
#guard dRay X X (v3 2 1 0) 1
#guard dRay O X (v3 1 2 0) 2
#guard dRay O X (v3 0 3 0) 3
#guard dRay O X (v3 (-1) 3 0) (length (v3 (-1) 3 0 : Vec Float 3))
def dLineRay (lo ld ro rd : Vec Float 3) (e : Float) : Bool := ok (Ray.make true ro rd) fun r => deq (distLineRay (Line.make lo ld) r) e
#guard dLineRay O X (v3 0 0 2) X 2
#guard dLineRay O X X X 0
#guard dLineRay (v3 1 1 1) Y (v3 1 1 1) X 0
#guard dLineRay (v3 1 1 1) X (v3 1 1 1) X 0
#guard dLineRay (v3 1 1 0) Y (v3 1 1 1) X 1
#guard dLineRay (v3 1 1 0) X (v3 1 1 1) X 1
#guard dLineRay O Y X X 1
#guard dLineRay O Y (v3 0 1 1) X 1

/-! ### `Distance/DistanceLineTest.cpp`, `DistancePlaneTest.cpp`, `DistanceSphereTest.cpp` -/
#guard deq (distVecLine (v3 2 2 0) (Line.make O X)) 2
#guard deq (distVecLine (v3 0 2 2) (Line.make O X)) (length (v2 2 2 : Vec Float 2))
#guard deq (distVecLine O (Line.make X Z)) 1
#guard deq (distVecLine O (Line.make O X)) 0
def dLines (o d o' d' : Vec Float 3) (e : Float) : Bool := ok (distLineLine true (Line.make o d) (Line.make o' d')) fun x => deq x e
#guard dLines O Y (v3 0 0 2) X 2
#guard dLines O X (v3 0 0 3) X 3
#guard dLines O X O X 0
#guard dLines O Y O X 0
#guard dLines (v3 0 0 (-1)) Y O X 1
#guard [(v3 2 0 0, 2), (v3 (-2) 0 0, 2), (v3 9 4 (-2), 9), (v3 0 4 0, 0)].all
  fun (p : Vec Float 3 × Float) => deq (distPlaneVec (Plane.make O X) p.1) p.2
#guard [(v3 2 0 0, 1, -1), (v3 3 0 0, 0, 0), (v3 4 0 0, 1, 1)].all
  fun (p : Vec Float 3 × Float × Float) => deq (distSphere p.1 ⟨O, 3⟩) p.2.1 && deq (signedDistSphere p.1 ⟨O, 3⟩) p.2.2

/-! ### `Intersection/IntersectionIntervalTest.cpp` -/
#guard (intersectInterval (T := Float) ⟨0, 1⟩ ⟨-3, -2⟩ ⟨0, 0⟩).1 == 0
#guard (intersectInterval (T := Float) ⟨0, 1⟩ ⟨2, 3⟩ ⟨0, 0⟩).1 == 0
#guard let r := intersectInterval (T := Float) ⟨0, 1⟩ ⟨-1, 0⟩ ⟨0, 0⟩; r.1 == 1 && r.2.start == 0
#guard let r := intersectInterval (T := Float) ⟨0, 1⟩ ⟨1, 2⟩ ⟨0, 0⟩; r.1 == 1 && r.2.start == 1
#guard let r := intersectInterval (T := Float) ⟨0, 1⟩ ⟨0.5, 2⟩ ⟨0, 0⟩; r.1 == 2 && r.2.beq ⟨0.5, 1⟩

/-! ### `Intersection/IntersectionLineTest.cpp` -/
def X2 : Vec Float 2 := v2 1 0
def Y2 : Vec Float 2 := v2 0 1
#guard sameO (intersectLine2 (Line.make (v2 0 0) X2) (Line.make (v2 0 0) Y2)) (v2 0 0)
#guard sameO (intersectLine2 (Line.make (v2 0 0) X2) (Line.make (v2 1 (-1)) Y2)) (v2 1 0)
#guard (intersectLine2 (Line.make (v2 0 0) X2) (Line.make (v2 1 0) X2)).isNone
#guard (intersectLine2 (Line.make (v2 0 1) X2) (Line.make (v2 0 0) X2)).isNone
#guard (intersectLine3 (Line.make O X) (Line.make (v3 1 (-1) 1) Y)).isNone
#guard sameO (intersectLine3 (Line.make O (v3 0 1 1)) (Line.make O (v3 1 0 1))) O
#guard sameO (intersectLine3 (Line.make O X) (Line.make (v3 1 (-2) 0) Y)) X

/-! ### `Intersection/IntersectionPlaneTest.cpp` -/
#guard (intersectPlaneLine (Plane.make O Z) (Line.make O X)).isNone
#guard (intersectPlaneLine (Plane.make O Z) (Line.make X X)).isNone
#guard sameO (intersectPlaneLine (Plane.make O Z) (Line.make (v3 1 1 0) Z)) (v3 1 1 0)
#guard sameO (intersectPlaneLine (Plane.make O Z) (Line.make (v3 2 2 1) (v3 (-1) (-1) (-1)))) (v3 1 1 0)
#guard (intersectPlaneLine (Plane.make (v3 0 0 (-0.1)) Z) (Line.make O (v3 (-0.3) 0.2 (-1.9)))).isSome
#guard sameO (intersectPlaneSegment (Plane.make Z Z) ⟨v3 0 0 (-1), v3 0 0 2⟩) Z
#guard (intersectPlaneSegment (Plane.make Z Z) ⟨v3 0 0 (-1), X⟩).isNone
#guard (intersectPlaneSegment (Plane.make Z Z) ⟨Z, X⟩).isNone
#guard sameO (intersectPlaneSegment (Plane.make O Z) ⟨v3 2 2 1, v3 1 1 0⟩) (v3 1 1 0)
#guard sameO (intersectPlaneSegment (Plane.make O Z) ⟨v3 (-2) (-2) (-1), v3 (-1) (-1) 0⟩) (v3 (-1) (-1) 0)
#guard ok (Ray.make true (v3 (-2) (-2) (-1)) (normalize (v3 1 1 1))) fun r => sameO (intersectPlaneRay (Plane.make O Z) r) (v3 (-1) (-1) 0)
#guard ok (Ray.make true O (normalize X)) fun r => (intersectPlaneRay (Plane.make O Z) r).isNone

/-! ### `Intersection/IntersectionSegmentTest.cpp` -/
def seg2 (a b c d : Rat) : Segment Rat 2 := ⟨v2 a b, v2 c d⟩
def hit2 (s t : Segment Rat 2) (p : Vec Rat 2) : Bool := ok (intersectSegment2 true s t) fun r => sameO r p
def miss2 (s t : Segment Rat 2) : Bool := ok (intersectSegment2 true s t) fun r => r.isNone
#guard hit2 (seg2 1 1 4 1) (seg2 1 1 1 3) (v2 1 1)
#guard miss2 (seg2 0 0 1 0) (seg2 1 1 1 2)
#guard hit2 (seg2 0 1 2 1) (seg2 0 0 3 3) (v2 1 1)
#guard hit2 (seg2 0 1 2 1) (seg2 0 2 2 0) (v2 1 1)
#guard hit2 (seg2 2 1 0 0) (seg2 2 1 3 4) (v2 2 1)
#guard hit2 (seg2 0 1 2 1) (seg2 1 (-1) 2 1) (v2 2 1)
#guard miss2 (seg2 0 0 1 0) (seg2 (-2) 0 (-1) 0)
#guard miss2 (seg2 0 0 1 0) (seg2 0 1 1 1)
#guard sameO (intersectSegment3 ⟨v3 1 1 0, v3 2 1 0⟩ ⟨v3 1 1 0, v3 1 2 0⟩) (v3 1 1 0 : Vec Float 3)
#guard sameO (intersectSegment3 ⟨v3 0 1 1, v3 5 1 1⟩ ⟨O, v3 3 3 3⟩) (v3 1 1 1)
#guard sameO (intersectSegment3 ⟨v3 0 1 1, v3 2 1 1⟩ ⟨v3 0 2 1, v3 2 0 1⟩) (v3 1 1 1 : Vec Float 3)
#guard (intersectSegment3 ⟨O, X⟩ ⟨v3 1 1 1, v3 1 2 1⟩).isNone
#guard (intersectSegment3 ⟨O, X⟩ ⟨v3 (-2) 0 0, v3 (-1) 0 0⟩).isNone
#guard (intersectSegment3 (T := Float) ⟨v3 0 0 2, v3 1 0 2⟩ ⟨v3 0 1 3, v3 1 1 3⟩).isNone
def segRay (s t o d : Vec Float 3) : Option (Vec Float 3) :=
  match Ray.make true o d with
  | .ok r => intersectSegmentRay ⟨s, t⟩ r
  | .error _ => none
#guard sameO (segRay (v3 1 1 0) (v3 2 1 0) (v3 1 1 0) Z) (v3 1 1 0)
#guard sameO (segRay (v3 0 1 1) (v3 5 1 1) O (v3 1 1 1)) (v3 1 1 1)
#guard (segRay O X (v3 1 1 1) (v3 1 2 1)).isNone
#guard (segRay O X (v3 (-2) 0 0) (v3 2 0 0)).isNone
#guard (segRay (v3 0 0 2) (v3 1 0 2) (v3 0 1 3) X).isNone
#guard sameO (segRay (v3 2 1 0) O (v3 2 1 0) (v3 3 4 1)) (v3 2 1 0)
#guard sameO (segRay O (v3 2 1 0) (v3 2 1 0) X) (v3 2 1 0)
#guard sameO (segRay (v3 0 2 1) (v3 4 2 1) (v3 2 0 1) (v3 0 4 0)) (v3 2 2 1)
/-- `RayPointsAtSegment`: the ray from (15, 15, 15) to the given point of the segment. -/
def pointsAt (p : Vec Float 3) : Option (Vec Float 3) := segRay O (v3 6 0 0) (v3 15 15 15) (vsub p (v3 15 15 15))
#guard nearO (pointsAt O) O && !sameO (pointsAt O) O -- only with tolerance
#guard sameO (pointsAt (v3 3 0 0)) (v3 3 0 0)
#guard nearO (pointsAt (v3 6 0 0)) (v3 6 0 0) && !sameO (pointsAt (v3 6 0 0)) (v3 6 0 0) -- only with tolerance

/-! ### `Intersection/IntersectionSphereTest.cpp` -/
def ball : Sphere Float := ⟨O, 1⟩
def hits (r : SphereIntersection Float) (p q : Option (Vec Float 3)) : Bool :=
  (match p with | some p => sameO r.first p | none => r.first.isNone) && (match q with | some q => sameO r.second q | none => r.second.isNone)
def ballRay (o d : Vec Float 3) (p q : Option (Vec Float 3)) : Bool := ok (Ray.make true o d) fun r => hits (intersectSphereRay ball r) p q
#guard hits (intersectSphereLine ball (Line.make O X)) (some X) (some (neg X))
#guard hits (intersectSphereLine ball (Line.make Z X)) (some Z) none
#guard !(intersectSphereLine ball (Line.make (v3 0 0 2) X)).hasIntersection
#guard ballRay (v3 (-3) 0 0) X (some X) (some (neg X))
#guard ballRay Z X (some Z) none
#guard ballRay O X (some X) none
#guard ballRay (v3 0 3 0) X none none
#guard hits (intersectSphereSegment ball ⟨v3 (-2) 0 0, v3 2 0 0⟩) (some X) (some (neg X))
#guard hits (intersectSphereSegment ball ⟨v3 (-2) 0 0, O⟩) none (some (neg X))
#guard hits (intersectSphereSegment ball ⟨O, v3 2 0 0⟩) (some X) none
#guard !(intersectSphereSegment ball ⟨v3 (-0.5) 0 0, v3 0.5 0 0⟩).hasIntersection
#guard !(intersectSphereSegment ball ⟨v3 (-2) 2 0, v3 2 2 0⟩).hasIntersection

/-! ### `Intersection/IntersectionAABBTest.cpp` -/
def box2 (a b e : Float) : AABB Float 2 := ⟨v2 a b, v2 (a + e) (b + e)⟩
#guard !aabbIsIntersecting (box2 0 0 1) (box2 1 0 1)
#guard aabbIsIntersecting (box2 0 0 1) (box2 0.5 0 1)
#guard !aabbIsIntersecting (box2 0 0 0.5) (box2 0.5 0.5 0.5)
#guard ok (aabbIntersect true (box2 0 0 1) (box2 0.5 0 1)) fun b => b.beq ⟨v2 0.5 0, v2 1 1⟩
#guard ok (aabbIntersect true (box2 0 0 1) (box2 2 0 1)) fun b => !b.isValid
#guard ok (aabbIntersect true (box2 0 0 0.5) (box2 0.5 0 0.5)) fun b => !b.isValid
#guard ok (aabbIntersect true (box2 0 0 0.5) (box2 0.5 0.5 0.5)) fun b => !b.isValid
def boxRays (o : Vec Float 3) (e : Bool) : Bool := [X, Y, Z].all fun d => ok (Ray.make true o d) fun r => isIntersectingRayBox r unitBox == e
#guard boxRays (v3 0.5 0.5 0.5) true
#guard boxRays (v3 (-0.5) (-0.5) (-0.5)) false
#guard boxRays (v3 1 0.5 0.5) true
def boxRay (o : Vec Float 3) (p q : Option (Vec Float 3)) : Bool :=
  ok (Ray.make true o X) fun r => ok (intersectRayBox true r unitBox) fun i => hits ⟨i.enter, i.exit⟩ p q
#guard boxRay (v3 0.5 0.5 0.5) none (some (v3 1 0.5 0.5))
#guard boxRay (v3 (-0.5) 0.5 0.5) (some (v3 0 0.5 0.5)) (some (v3 1 0.5 0.5))
#guard boxRay (v3 1 0.5 0.5) none (some (v3 1 0.5 0.5))

/-! ### `Intersection/BentleyOttmannTest.cpp` -/
/-- A search that is right whenever the comparator is monotone along the list. -/
def search (segs : List (Segment Rat 2)) : StatusSearch :=
  let go := fun (s : List Nat) (id : Nat) =>
    let k := (s.takeWhile fun e => compStatus segs e id).length
    (k, match s[k]? with | some e => !compStatus segs id e | none => false)
  ⟨go, go⟩
/-- The events sorted by x; events of equal x in the order in which they were pushed or in the opposite order. -/
def order (rev : Bool) (segs : List (Segment Rat 2)) : List (BOEvent Rat) :=
  (if rev then (boEvents segs).reverse else boEvents segs).mergeSort fun a b => decide (a.point 0 ≤ b.point 0)
def sweep (segs : List (Segment Rat 2)) (ps : List (Vec Rat 2)) : Bool :=
  [true, false].all fun rev => ok (bentleyOttmann true (search segs) segs (order rev segs)) fun r =>
    r.length == ps.length && (r.zip ps).all fun p => same p.1 p.2
#guard sweep [seg2 0 4 4 0, seg2 0 0 4 4] [v2 2 2]
#guard sweep [seg2 0 0 4 4, seg2 0 4 4 0, seg2 1 3 3 1] [v2 2 2, v2 2 2]
#guard sweep [seg2 0 0 4 4, seg2 2 2 4 4] []
#guard sweep [seg2 0 0 0 0, seg2 0 0 1 1] []
#guard sweep [seg2 0 0 1 0, seg2 2 2 3 2] []
#guard sweep [seg2 0 0 4 4, seg2 1 1 3 3] []
#guard sweep [seg2 0 0 1 1, seg2 0 1 1 2] []

/-! ### `Transformation/*.cpp` -/
def move (x y z : Float) : HMat Float := hmatSetTranslation hmatIdentity (v3 x y z)
#guard ok (transformAABB true (box (v3 0.5 0.5 0.5) 1) (move 0.5 0.5 0.5)) fun b => same b.min (v3 1 1 1)
#guard ok (transformCircle2 true ⟨v2 1 1, 0.5⟩ (move 1 1 0)) fun c => same c.origin (v2 2 2)
#guard same (transformCircle3 ⟨v3 1 1 1, 0.5, Z⟩ (move 1 1 1)).origin (v3 2 2 2)
#guard same (transformCone ⟨⟨v3 1 1 1, v3 2 2 2⟩, 0.5⟩ (move 1 1 1)).segment.source (v3 2 2 2)
#guard same (transformCylinder ⟨⟨v3 1 1 1, v3 2 2 2⟩, 0.5⟩ (move 1 1 1)).segment.source (v3 2 2 2)
#guard same (transformSphere ⟨v3 1 1 1, 0.5⟩ (move 1 1 1)).origin (v3 2 2 2)
/-- `linal::rot_y(π / 2)`. -/
def rotY : HMat Float :=
  let c := Float.cos (3.14159265358979323846 / 2)
  let s := Float.sin (3.14159265358979323846 / 2)
  fun i j => (vec3 (hvec4 c 0 s 0) (hvec4 0 1 0 0) (hvec4 (-s) 0 c 0) : Fin 3 → Vec Float 4) (Fin.ofNat 3 i) j * (if i = 3 then 0 else 1) +
    (if i = 3 && j = 3 then 1 else 0)
def rotated : Vec Float 3 := (transformCircle3 ⟨v3 1 1 1, 0.5, Z⟩ rotY).origin
#guard near rotated (v3 1 1 (-1)) && !same rotated (v3 1 1 (-1)) -- only with tolerance

/-! ### `HalfedgeMesh/*.cpp`, `MeshBuilder/*.cpp` -/
def cubeMesh (o d : Vec Float 3) : Res (HalfedgeMesh (Vec Float 3)) :=
  (·.1) <$> CuboidBuilder.build true (2 ^ 64) 64 (({ origin := O, diagonal := X } : CuboidBuilder Float).setCuboid (Cuboid.ofDiagonal o d))
def cube : Res (HalfedgeMesh (Vec Float 3)) := cubeMesh O (v3 1 1 1)
#guard ok cube fun m => m.vertices.length == 8 && m.halfedges.length == 36 && m.facets.length == 12
#guard ok cube fun m => ok (vecGet m.vertices 0) fun v => ok (calcVertexFacets m v) fun l => l.length == 6
#guard ok cube fun m => ok (calcVertexNormals m) fun l => l.length == m.points.length
#guard ok cube fun m => ok (vecGet m.facets 0) fun f => ok (calcHalfedges m f) fun l => l.length == 3
#guard ok cube fun m => ok (calcLineIndices true (2 ^ 32) m) fun l => l.length == 36
#guard ok cube fun m => ok (calcTriangleIndices (2 ^ 32) m) fun l => l.length == 36
#guard ok cube fun m => ok (m.isValid true (2 ^ 64)) id
#guard ok (CuboidBuilder.build true (2 ^ 64) 64 ((({ origin := O, diagonal := X } : CuboidBuilder Float).setOrigin (v3 1 (-1) 0)).setDiagonal (v3 1 1 1)))
  fun r => ok (calcLineIndices true (2 ^ 32) r.1) fun l => l.length == 36
#guard ok (coneBuild true (2 ^ 64) 64 (fun _ _ => hmatIdentity) (some ⟨⟨O, Z⟩, 10⟩) 20) fun m =>
  match m with | some m => ok (m.isValid true (2 ^ 64)) id | none => false
#guard ok (cylinderBuild true (2 ^ 64) 64 (fun _ _ => hmatIdentity) (some ⟨⟨O, Z⟩, 10⟩) 20) fun m =>
  match m with | some m => ok (m.isValid true (2 ^ 64)) id | none => false
#guard ok (SphereBuilder.build true (2 ^ 64) 64 { origin := O, radius := 1, sphere := some ⟨O, 3⟩ }) fun m =>
  ok (m.1.isValid true (2 ^ 64)) id && m.1.vertices.all (vertexValidImpl (2 ^ 64)) &&
    m.1.points.all fun p => isLessEq (distSphere p ⟨O, 3⟩) Tol.eps

/-! ### `HalfedgeMesh/DebugHelperTest.cpp` -/
def render (l : List (Out Float)) : String :=
  String.join (l.map fun | .text s => s | .idx n => toString n | .num x => toString x.toUInt64 | .endl => "\n")
def cube2 : Res (HalfedgeMesh (Vec Float 3)) := cubeMesh (v3 1 2 3) (v3 4 5 6)
#guard render (printInlineVec (v3 1 2 3)) == "vec: 1 2 3"
#guard render (printVec (v3 1 2 3)) == "vec: 1 2 3\n"
#guard render (printVecs [v3 1 2 3, v3 4 5 6]) == "vec: 1 2 3\nvec: 4 5 6\n"
#guard ok cube2 fun m => ok (printAll (printVertex m) (m.vertices.take 2)) fun l =>
  render l == "Vertex index: 0; vec: 1 2 3\nVertex index: 1; vec: 1 2 9\n"
#guard ok cube2 fun m => ok (printAll (printFacet m) (m.facets.take 2)) fun l => render l == "Facet halfedge index: 0\nFacet halfedge index: 1\n"
#guard ok cube2 fun m => ok (printAll (printHalfedge m) (m.halfedges.take 2)) fun l => render l ==
  "Halfedge index: 0; Halfedge vertex index: 0; Opposite halfedge index: 0; Vertex vector, vec: 1 2 3; Facet index: 0\n" ++
  "Halfedge index: 0; Halfedge vertex index: 1; Opposite halfedge index: 1; Vertex vector, vec: 1 2 9; Facet index: 0\n"

end Verif.Conformance
