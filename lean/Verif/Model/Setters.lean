import Verif.Model.Transform

/-
Sequences of setter calls on shapes whose constructors or setters check something.
-/
namespace Verif
variable {T : Type u} {D : Nat}

/-- A call of a setter of `Circle2` (`Circle.hpp:31-36`). -/
inductive Circle2Op (T : Type u)
  | setOrigin (o : Vec T 2)
  | setRadius (r : T)

/-- Its effect. -/
def Circle2.apply [Zero T] [LE T] [DecidableLE T] (dbg : Bool) (c : Circle2 T) : Circle2Op T → Res (Circle2 T)
  | .setOrigin o => .ok { c with origin := o }
  | .setRadius r => c.setRadius dbg r

/-- Construct a `Circle2` (`Circle.hpp:21-26`) and call setters. -/
def Circle2.history [Zero T] [LE T] [DecidableLE T] (dbg : Bool) (o : Vec T 2) (r : T) (ops : List (Circle2Op T)) :
    Res (Circle2 T) := do
  let c ← Circle2.make dbg o r
  ops.foldlM (Circle2.apply dbg) c

/-- A call of a setter of `Circle3` (`Circle.hpp:66-76`). -/
inductive Circle3Op (T : Type u)
  | setOrigin (o : Vec T 3)
  | setRadius (r : T)
  | setNormal (n : Vec T 3)

/-- Its effect. -/
def Circle3.apply [Zero T] [One T] [Add T] [Mul T] [HasSqrt T] [Tol T] [LE T] [DecidableLE T] (dbg : Bool) (c : Circle3 T) :
    Circle3Op T → Res (Circle3 T)
  | .setOrigin o => .ok { c with origin := o }
  | .setRadius r => c.setRadius dbg r
  | .setNormal n => c.setNormal dbg n

/-- Construct a `Circle3` (`Circle.hpp:55-60`, which checks nothing) and call setters. -/
def Circle3.history [Zero T] [One T] [Add T] [Mul T] [HasSqrt T] [Tol T] [LE T] [DecidableLE T] (dbg : Bool) (o : Vec T 3) (r : T)
    (n : Vec T 3) (ops : List (Circle3Op T)) : Res (Circle3 T) :=
  ops.foldlM (Circle3.apply dbg) ⟨o, r, n⟩

/-- A call of a setter of `Ray` (`Ray.hpp:30-31`). -/
inductive RayOp (T : Type u) (D : Nat)
  | setOrigin (o : Vec T D)
  | setDirection (d : Vec T D)

/-- Its effect. -/
def Ray.apply (r : Ray T D) : RayOp T D → Ray T D
  | .setOrigin o => r.setOrigin o
  | .setDirection d => r.setDirection d

/-- Construct a `Ray` (`Ray.hpp:20-25`) and call setters. -/
def Ray.history [Zero T] [Add T] [Mul T] [Div T] [HasSqrt T] [Tol T] [LT T] [DecidableLT T] (dbg : Bool) (o d : Vec T D)
    (ops : List (RayOp T D)) : Res (Ray T D) := do
  let r ← Ray.make dbg o d
  .ok (ops.foldl Ray.apply r)

/-- A call of a setter of `AABB` (`AABB.hpp:60-61,101-133`). -/
inductive AABBOp (T : Type u) (D : Nat)
  | setMin (v : Vec T D)
  | setMax (v : Vec T D)
  | add (v : Vec T D)
  | addBox (b : AABB T D)

/-- Its effect. -/
def AABB.apply [Tol T] (b : AABB T D) : AABBOp T D → AABB T D
  | .setMin v => { b with min := v }
  | .setMax v => { b with max := v }
  | .add v => b.add v
  | .addBox o => b.addBox o

/-- Construct an `AABB` (`AABB.hpp:33-38`) and call setters. -/
def AABB.history [Tol T] (dbg : Bool) (lo hi : Vec T D) (ops : List (AABBOp T D)) : Res (AABB T D) := do
  let b ← AABB.mk? dbg lo hi
  .ok (ops.foldl AABB.apply b)

end Verif
