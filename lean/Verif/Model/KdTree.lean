import Verif.Model.Basic

/-
Model of `src/include/Geometry/KdTree.hpp`.
-/
namespace Verif

/-- `struct Node` (`KdTree.hpp:50-77`) behind a `std::unique_ptr`: `nil` is the null pointer.
A tree without payload is the case `P = Unit` (`NoPayloadTag`, `KdTree.hpp:33`). -/
inductive KdNode (V : Type u) (P : Type v)
  | nil
  | node (pt : V) (payload : P) (left right : KdNode V P)
  deriving Repr

/-- `class KdTree` data members `m_root`, `m_size` (`KdTree.hpp:158-159`).
`size_type` is unsigned with `w` bits (the width is decided by `linal`, so it is a parameter). -/
structure KdTree (T : Type u) (D : Nat) (P : Type v) (w : Nat) where
  root : KdNode (Vec T D) P
  size : BitVec w

/-- `depth % D` (`KdTree.hpp:175,198,223`); `depth` is a `size_type`, so it wraps at `2^w`. -/
def axisOf (D : Nat) [NeZero D] {w : Nat} (depth : BitVec w) : Fin D := Fin.ofNat D depth.toNat

namespace KdNode
variable {T : Type u} {D : Nat} {P : Type v} {w : Nat}

section
variable [NeZero D] [LT T] [DecidableLT T] [BEq (Vec T D)]

/-- `insertHelper` (`KdTree.hpp:161-184`).  Returns the new subtree and the `bool` result.
Simplification: `m_size++` (line 166), which happens exactly on the `true` path, is done by the caller. -/
def insertHelper (pt : Vec T D) (payload : P) :
    KdNode (Vec T D) P → BitVec w → KdNode (Vec T D) P × Bool
  | nil, _ => (node pt payload nil nil, true)
  | node p pl l r, depth =>
    if p == pt then (node p pl l r, false)
    else if pt (axisOf D depth) < p (axisOf D depth) then
      let res := insertHelper pt payload l (depth + 1)
      (node p pl res.1 r, res.2)
    else
      let res := insertHelper pt payload r (depth + 1)
      (node p pl l res.1, res.2)

/-- `searchHelper` (`KdTree.hpp:186-207`). -/
def searchHelper (pt : Vec T D) : KdNode (Vec T D) P → BitVec w → Bool
  | nil, _ => false
  | node p _ l r, depth =>
    if p == pt then true
    else if pt (axisOf D depth) < p (axisOf D depth) then searchHelper pt l (depth + 1)
    else searchHelper pt r (depth + 1)
end

/-- A `node_t*` into the tree is represented by the path from the root (`false` = left, `true` = right). -/
abbrev Path := List Bool

/-- The node a path points to (`bestNode->nodeValue`, `KdTree.hpp:136,150`). -/
def get? {V : Type u} : KdNode V P → Path → Option (V × P)
  | nil, _ => none
  | node p pl _ _, [] => some (p, pl)
  | node _ _ l _, false :: rest => get? l rest
  | node _ _ _ r, true :: rest => get? r rest

/-- Writing through the `payload_t&` returned by `nearest` (`KdTree.hpp:150`). -/
def modifyAt {V : Type u} (f : P → P) : KdNode V P → Path → KdNode V P
  | nil, _ => nil
  | node p pl l r, [] => node p (f pl) l r
  | node p pl l r, false :: rest => node p pl (modifyAt f l rest) r
  | node p pl l r, true :: rest => node p pl l (modifyAt f r rest)
end KdNode

section
variable {T : Type u} {D : Nat} {P : Type v} {w : Nat}

/-- `KdTree::distance` (`KdTree.hpp:234-243`): accumulates the squares left to right, then `std::sqrt`. -/
def kdDistance [Zero T] [Add T] [Sub T] [Mul T] [HasSqrt T] (a b : Vec T D) : T :=
  HasSqrt.sqrt (Fin.foldl D (fun sum i => sum + (a i - b i) * (a i - b i)) 0)

/-- `nearestHelper` (`KdTree.hpp:209-232`).  The in/out parameters `*bestNode`, `bestDist` are threaded as a pair. -/
def KdNode.nearestHelper [NeZero D] [Zero T] [Add T] [Sub T] [Mul T] [Neg T] [HasSqrt T] [LT T] [DecidableLT T]
    (query : Vec T D) : KdNode (Vec T D) P → Path → BitVec w → Path × T → Path × T
  | .nil, _, _, best => best
  | .node p _ l r, path, depth, best =>
    let dist := kdDistance p query
    let best1 := if dist < best.2 then (path, dist) else best
    let diff := query (axisOf D depth) - p (axisOf D depth)
    if diff < 0 then
      let best2 := nearestHelper query l (path ++ [false]) (depth + 1) best1
      if stdAbs diff < best2.2 then nearestHelper query r (path ++ [true]) (depth + 1) best2 else best2
    else
      let best2 := nearestHelper query r (path ++ [true]) (depth + 1) best1
      if stdAbs diff < best2.2 then nearestHelper query l (path ++ [false]) (depth + 1) best2 else best2

namespace KdTree

/-- `KdTree()` (`KdTree.hpp:94-98`). -/
def empty : KdTree T D P w := ⟨.nil, 0⟩

/-- `size()` (`KdTree.hpp:153`). -/
def getSize (t : KdTree T D P w) : BitVec w := t.size

/-- `empty()` (`KdTree.hpp:155`). -/
def isEmpty (t : KdTree T D P w) : Bool := t.size == 0

/-- `insert` (`KdTree.hpp:106-121`, both overloads). -/
def insert [NeZero D] [LT T] [DecidableLT T] [BEq (Vec T D)]
    (t : KdTree T D P w) (pt : Vec T D) (payload : P) : KdTree T D P w × Bool :=
  let res := KdNode.insertHelper pt payload t.root (0 : BitVec w)
  (⟨res.1, if res.2 then t.size + 1 else t.size⟩, res.2)

/-- `search` (`KdTree.hpp:123`). -/
def search [NeZero D] [LT T] [DecidableLT T] [BEq (Vec T D)] (t : KdTree T D P w) (pt : Vec T D) : Bool :=
  KdNode.searchHelper pt t.root (0 : BitVec w)

section
variable [NeZero D] [Zero T] [Add T] [Sub T] [Mul T] [Neg T] [HasSqrt T] [LT T] [DecidableLT T]

/-- The node `nearest` ends up pointing to (`KdTree.hpp:128-135`, `142-149`); throws on an empty tree. -/
def nearestPath (t : KdTree T D P w) (query : Vec T D) : Res KdNode.Path :=
  match t.root with
  | .nil => .error .exception
  | .node p pl l r =>
    .ok (KdNode.nearestHelper query (.node p pl l r) [] (0 : BitVec w) ([], kdDistance query p)).1

/-- `nearest` (`KdTree.hpp:125-151`, both overloads): the point and (a copy of) the payload. -/
def nearest (t : KdTree T D P w) (query : Vec T D) : Res (Vec T D × P) :=
  match nearestPath t query with
  | .error e => .error e
  | .ok path =>
    match t.root.get? path with
    | some e => .ok e
    | none => .error .outOfRange

/-- `nearest(query).second = f(nearest(query).second)`: the caller writes through the returned payload reference
(as `MeshTriangleAdder.hpp:149-150` does). -/
def modifyNearest (t : KdTree T D P w) (query : Vec T D) (f : P → P) : Res (KdTree T D P w) :=
  match nearestPath t query with
  | .error e => .error e
  | .ok path => .ok ⟨t.root.modifyAt f path, t.size⟩
end

/-- The defaulted move operations (`KdTree.hpp:103-104`), as (target, source) afterwards: `m_root` is a `unique_ptr`, which is null in the
source afterwards; `m_size` is a number, which is copied. -/
def move (source : KdTree T D P w) : KdTree T D P w × KdTree T D P w := (⟨source.root, source.size⟩, ⟨.nil, source.size⟩)
end KdTree
end
end Verif
