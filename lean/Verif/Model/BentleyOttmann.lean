import Verif.Model.Intersect

/-
Model of `src/include/Geometry/Intersect/BentleyOttmann.hpp`.

`BOSegment::id` is never read.  `std::priority_queue` is external: all events are pushed before the first one is popped,
so the popped sequence is the events sorted by x, with events of equal x in any order (`PopOrder`).  `std::set` is external:
its elements in order are a list, and a search of the tree for a key ends at a position that is described by
`StatusSearch`; `StatusSearch.Faithful` says that the search respects the comparator whenever the comparator's answers for the key are
monotone along the list (if they are not, the standard gives no guarantee and any position is possible).
-/
namespace Verif
variable {T : Type}

/-- `enum class EventType` (`BentleyOttmann.hpp:24-28`). -/
inductive EventType
  | start
  | stop
  deriving DecidableEq, Repr

/-- `struct Event` (`BentleyOttmann.hpp:30-36`). -/
structure BOEvent (T : Type) where
  point : Vec T 2
  segmentId : Nat
  type : EventType

/-- `compute_y` (`BentleyOttmann.hpp:38-47`). -/
def computeY [Add T] [Sub T] [Mul T] [Div T] [BEq T] (seg : Segment T 2) (x : T) : T :=
  let a := seg.source
  let b := seg.target
  if a 0 == b 0 then a 1
  else a 1 + (b 1 - a 1) * (x - a 0) / (b 0 - a 0)

/-- The body of `compStatus` for two segments (`BentleyOttmann.hpp:61-70`). -/
def compSegments [Add T] [Sub T] [Mul T] [Div T] [BEq T] [LT T] [DecidableLT T] (s1 s2 : Segment T 2) : Bool :=
  let x := stdMax (stdMin (s1.source 0) (s1.target 0)) (stdMin (s2.source 0) (s2.target 0))
  decide (computeY s1 x < computeY s2 x)

/-- `compStatus` (`BentleyOttmann.hpp:59-71`); `false` for an index that is out of range (C39 shows that there is none). -/
def compStatus [Add T] [Sub T] [Mul T] [Div T] [BEq T] [LT T] [DecidableLT T] (segs : List (Segment T 2)) (id1 id2 : Nat) : Bool :=
  match segs[id1]?, segs[id2]? with
  | some s1, some s2 => compSegments s1 s2
  | _, _ => false

/-- The pushed events (`BentleyOttmann.hpp:74-78`). -/
def boEvents (segs : List (Segment T 2)) : List (BOEvent T) :=
  segs.zipIdx.flatMap fun p => [⟨p.1.source, p.2, .start⟩, ⟨p.1.target, p.2, .stop⟩]

/-- The orders in which the queue can return the events (`compEvent`, `BentleyOttmann.hpp:56`). -/
def PopOrder [LT T] (segs : List (Segment T 2)) (es : List (BOEvent T)) : Prop :=
  es.Perm (boEvents segs) ∧ es.Pairwise fun a b => ¬ b.point 0 < a.point 0

/-- Where searches of the status tree end: `(k, true)` when the element at position `k` is found to be equivalent to the
key, `(k, false)` when none is and the key belongs before position `k`. -/
structure StatusSearch where
  insert : List Nat → Nat → Nat × Bool
  find : List Nat → Nat → Nat × Bool

/-- The comparator's answers for `id` along `s` are monotone and put it at `k` (`eq`: the element there is equivalent). -/
def Locates (comp : Nat → Nat → Bool) (s : List Nat) (id k : Nat) (eq : Bool) : Prop :=
  (∀ i e, s[i]? = some e → i < k → comp e id = true ∧ comp id e = false) ∧
  (∀ i e, s[i]? = some e → (if eq then k < i else k ≤ i) → comp id e = true ∧ comp e id = false) ∧
  (if eq then ∃ e, s[k]? = some e ∧ comp id e = false ∧ comp e id = false else k ≤ s.length)

/-- What `std::set` guarantees. -/
def StatusSearch.Faithful (o : StatusSearch) (comp : Nat → Nat → Bool) : Prop :=
  ∀ s id k eq, Locates comp s id k eq → o.insert s id = (k, eq) ∧ o.find s id = (k, eq)

/-- `status.insert(id).first`: the elements afterwards and the position of the iterator. -/
def statusInsert (o : StatusSearch) (s : List Nat) (id : Nat) : List Nat × Nat :=
  let r := o.insert s id
  if r.2 && decide (r.1 < s.length) then (s, r.1)
  else (s.insertIdx (min r.1 s.length) id, min r.1 s.length)

/-- `status.find(id)`. -/
def statusFind (o : StatusSearch) (s : List Nat) (id : Nat) : Option Nat :=
  let r := o.find s id
  if r.2 && decide (r.1 < s.length) then some r.1 else none

/-- The element after and the element before an iterator (`BentleyOttmann.hpp:93-94,120-121`). -/
def statusAbove (s : List Nat) (pos : Nat) : Option Nat := s[pos + 1]?
def statusBelow (s : List Nat) (pos : Nat) : Option Nat := if pos = 0 then none else s[pos - 1]?

section
variable [Zero T] [One T] [Add T] [Sub T] [Mul T] [Div T] [Neg T] [DecidableEq T] [Tol T]

/-- Intersect the segments of two elements and append the point (`BentleyOttmann.hpp:98-101,106-109,125-128`). -/
def boReport (dbg : Bool) (segs : List (Segment T 2)) (i j : Nat) (points : List (Vec T 2)) : Res (List (Vec T 2)) := do
  let si ← vecGet segs i
  let sj ← vecGet segs j
  match ← intersectSegment2 dbg si sj with
  | some p => .ok (points ++ [p])
  | none => .ok points

/-- `if (above) { … }` (`BentleyOttmann.hpp:96-102`, `:104-110`): the same for a neighbour that need not exist. -/
def boReportOpt (dbg : Bool) (segs : List (Segment T 2)) (i : Nat) (j : Option Nat) (points : List (Vec T 2)) :
    Res (List (Vec T 2)) :=
  match j with
  | some j => boReport dbg segs i j points
  | none => .ok points

/-- `if (above && below) { … }` (`BentleyOttmann.hpp:123-129`): both neighbours must exist. -/
def boReportBoth (dbg : Bool) (segs : List (Segment T 2)) (i j : Option Nat) (points : List (Vec T 2)) :
    Res (List (Vec T 2)) :=
  match i, j with
  | some i, some j => boReport dbg segs i j points
  | _, _ => .ok points

/-- One round of the main loop (`BentleyOttmann.hpp:82-132`) on the status elements and the points found so far. -/
def boStep (dbg : Bool) (o : StatusSearch) (segs : List (Segment T 2)) (st : List Nat × List (Vec T 2)) (e : BOEvent T) :
    Res (List Nat × List (Vec T 2)) :=
  match e.type with
  | .start => do
    let r := statusInsert o st.1 e.segmentId
    let it ← vecGet r.1 r.2
    let pts ← boReportOpt dbg segs it (statusAbove r.1 r.2) st.2
    let pts ← boReportOpt dbg segs it (statusBelow r.1 r.2) pts
    .ok (r.1, pts)
  | .stop =>
    match statusFind o st.1 e.segmentId with
    | none => .ok st
    | some pos => do
      let pts ← boReportBoth dbg segs (statusAbove st.1 pos) (statusBelow st.1 pos) st.2
      .ok (st.1.eraseIdx pos, pts)

/-- `bentley_ottmann` (`BentleyOttmann.hpp:49-136`) for a given order of the events and given tree searches. -/
def bentleyOttmann (dbg : Bool) (o : StatusSearch) (segs : List (Segment T 2)) (es : List (BOEvent T)) :
    Res (List (Vec T 2)) := do
  let st ← es.foldlM (boStep dbg o segs) (([], []) : List Nat × List (Vec T 2))
  .ok st.2
end

end Verif
