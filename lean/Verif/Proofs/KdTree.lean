import Verif.Model.KdTree
import Verif.Spec.KdTree
import Mathlib.Order.Defs.LinearOrder
import Mathlib.Data.List.Basic

set_option linter.unusedSectionVars false

namespace Verif
open KdNode

/-- What the tree needs of `vec::operator==`: equal vectors compare alike.  Exact equality has this (`instLtCongr`),
and so has IEEE equality (`-0.0 == 0.0`, NaN equal to nothing, see `Proofs/IeeeKdTree.lean`). -/
class LtCongr (T : Type u) (D : Nat) [BEq (Vec T D)] [LT T] : Prop where
  lt_congr : ∀ (a b c : Vec T D) (i : Fin D), (a == b) = true → a i < c i → b i < c i

instance instLtCongr (T : Type u) (D : Nat) [BEq (Vec T D)] [LawfulBEq (Vec T D)] [LT T] : LtCongr T D where
  lt_congr a b c i h hl := by rw [← eq_of_beq h]; exact hl

namespace KdNode
variable {T : Type u} {D : Nat} {P : Type v} {w : Nat}

/-- All stored entries, node first. -/
def entries {V : Type u} : KdNode V P → List (V × P)
  | nil => []
  | node p pl l r => (p, pl) :: (entries l ++ entries r)

variable [NeZero D] [LT T] [DecidableLT T] [BEq (Vec T D)]

/-- Search-tree invariant. -/
def Inv : KdNode (Vec T D) P → BitVec w → Prop
  | nil, _ => True
  | node p _ l r, d =>
    (∀ e ∈ entries l, e.1 (axisOf D d) < p (axisOf D d) ∧ (p == e.1) = false) ∧
    (∀ e ∈ entries r, ¬ e.1 (axisOf D d) < p (axisOf D d) ∧ (p == e.1) = false) ∧
    Inv l (d + 1) ∧ Inv r (d + 1)

theorem search_iff [PartialEquivBEq (Vec T D)] [LtCongr T D] (q : Vec T D) (t : KdNode (Vec T D) P) (d : BitVec w)
    (hi : Inv t d) : searchHelper q t d = true ↔ ∃ e ∈ entries t, (e.1 == q) = true := by
  induction t generalizing d with
  | nil => simp [searchHelper, entries]
  | node p pl l r ihl ihr =>
    obtain ⟨hl, hr, il, ir⟩ := hi
    simp only [searchHelper, entries]
    by_cases hpq : (p == q) = true
    · simp [hpq]
    · simp only [hpq, Bool.false_eq_true, if_false]
      by_cases hlt : q (axisOf D d) < p (axisOf D d)
      · rw [if_pos hlt, ihl _ il]
        constructor
        · rintro ⟨e, he, h⟩; exact ⟨e, by simp [he], h⟩
        · rintro ⟨e, he, h⟩
          simp only [List.mem_cons, List.mem_append] at he
          rcases he with rfl | he | he
          · exact absurd h hpq
          · exact ⟨e, he, h⟩
          · exact absurd (LtCongr.lt_congr _ _ p _ (BEq.symm h) hlt) (hr e he).1
      · rw [if_neg hlt, ihr _ ir]
        constructor
        · rintro ⟨e, he, h⟩; exact ⟨e, by simp [he], h⟩
        · rintro ⟨e, he, h⟩
          simp only [List.mem_cons, List.mem_append] at he
          rcases he with rfl | he | he
          · exact absurd h hpq
          · exact absurd (LtCongr.lt_congr _ _ p _ h (hl e he).1) hlt
          · exact ⟨e, he, h⟩

theorem insert_snd (q : Vec T D) (pl : P) (t : KdNode (Vec T D) P) (d : BitVec w) :
    (insertHelper q pl t d).2 = !searchHelper q t d := by
  induction t generalizing d with
  | nil => simp [insertHelper, searchHelper]
  | node p pl' l r ihl ihr =>
    simp only [insertHelper, searchHelper]
    split
    · rfl
    · split
      · exact ihl _
      · exact ihr _

theorem insert_false (q : Vec T D) (pl : P) (t : KdNode (Vec T D) P) (d : BitVec w)
    (h : (insertHelper q pl t d).2 = false) : (insertHelper q pl t d).1 = t := by
  induction t generalizing d with
  | nil => simp [insertHelper] at h
  | node p pl' l r ihl ihr =>
    simp only [insertHelper] at h ⊢
    split
    · rfl
    · rename_i hpq
      simp only [hpq, Bool.false_eq_true, if_false] at h
      split
      · rename_i hlt; simp only [hlt, if_true] at h; rw [ihl _ h]
      · rename_i hlt; simp only [hlt, if_false] at h; rw [ihr _ h]

theorem insert_perm (q : Vec T D) (pl : P) (t : KdNode (Vec T D) P) (d : BitVec w)
    (h : (insertHelper q pl t d).2 = true) :
    (entries (insertHelper q pl t d).1).Perm ((q, pl) :: entries t) := by
  induction t generalizing d with
  | nil => simp [insertHelper, entries]
  | node p pl' l r ihl ihr =>
    simp only [insertHelper] at h ⊢
    split
    · rename_i hpq; simp [hpq] at h
    · rename_i hpq
      simp only [hpq, Bool.false_eq_true, if_false] at h
      split
      · rename_i hlt; simp only [hlt, if_true] at h
        simp only [entries]
        exact ((ihl _ h).append_right _).cons _ |>.trans (List.Perm.swap _ _ _)
      · rename_i hlt; simp only [hlt, if_false] at h
        simp only [entries]
        refine ((ihr _ h).append_left _).cons _ |>.trans ?_
        exact (List.perm_middle.cons _).trans (List.Perm.swap _ _ _)

theorem insert_mem (q : Vec T D) (pl : P) (t : KdNode (Vec T D) P) (d : BitVec w) (e : Vec T D × P)
    (he : e ∈ entries (insertHelper q pl t d).1) : e = (q, pl) ∨ e ∈ entries t := by
  cases h : (insertHelper q pl t d).2 with
  | false => rw [insert_false _ _ _ _ h] at he; exact .inr he
  | true => simpa using (insert_perm q pl t d h).mem_iff.1 he

theorem insert_inv (q : Vec T D) (pl : P) (t : KdNode (Vec T D) P) (d : BitVec w)
    (hi : Inv t d) : Inv (insertHelper q pl t d).1 d := by
  induction t generalizing d with
  | nil => simp [insertHelper, Inv, entries]
  | node p pl' l r ihl ihr =>
    have hi' := hi
    obtain ⟨hl, hr, il, ir⟩ := hi
    simp only [insertHelper]
    split
    · exact hi'
    · rename_i hpq
      simp only [Bool.not_eq_true] at hpq
      split
      · rename_i hlt
        refine ⟨?_, hr, ihl _ il, ir⟩
        intro e he
        rcases insert_mem _ _ _ _ _ he with rfl | he
        · exact ⟨hlt, hpq⟩
        · exact hl e he
      · rename_i hlt
        refine ⟨hl, ?_, il, ihr _ ir⟩
        intro e he
        rcases insert_mem _ _ _ _ _ he with rfl | he
        · exact ⟨hlt, hpq⟩
        · exact hr e he

omit [NeZero D] [LT T] [DecidableLT T] in
theorem keys_distinct_perm {l l' : List (Vec T D × P)} [PartialEquivBEq (Vec T D)] (hp : l.Perm l')
    (h : l.Pairwise (fun a b => (a.1 == b.1) = false)) : l'.Pairwise (fun a b => (a.1 == b.1) = false) :=
  hp.pairwise h (fun h => by rw [BEq.comm]; exact h)

/-- Keys of a tree satisfying the invariant are pairwise different. -/
theorem inv_pairwise [PartialEquivBEq (Vec T D)] [LtCongr T D] (t : KdNode (Vec T D) P) (d : BitVec w) (hi : Inv t d) :
    (entries t).Pairwise (fun a b => (a.1 == b.1) = false) := by
  induction t generalizing d with
  | nil => simp [entries]
  | node p pl l r ihl ihr =>
    obtain ⟨hl, hr, il, ir⟩ := hi
    simp only [entries, List.pairwise_cons, List.pairwise_append, List.mem_append]
    refine ⟨?_, ihl _ il, ihr _ ir, ?_⟩
    · rintro e (he | he)
      · exact (hl e he).2
      · exact (hr e he).2
    · intro a ha b hb
      by_contra h
      simp only [Bool.not_eq_false] at h
      exact (hr b hb).1 (LtCongr.lt_congr _ _ p _ h (hl a ha).1)

section modify
omit [NeZero D] [LT T] [DecidableLT T]

theorem get?_mem {V : Type u} (t : KdNode V P) (path : Path) (e : V × P) (h : t.get? path = some e) : e ∈ entries t := by
  induction t generalizing path with
  | nil => simp [get?] at h
  | node p pl l r ihl ihr =>
    match path with
    | [] => simp only [get?, Option.some.injEq] at h; simp [entries, h]
    | false :: rest => simp only [get?] at h; simp [entries, ihl _ h]
    | true :: rest => simp only [get?] at h; simp [entries, ihr _ h]

theorem modify_entries [EquivBEq (Vec T D)] (f : P → P) (t : KdNode (Vec T D) P) (path : Path) (e : Vec T D × P)
    (hk : (entries t).Pairwise (fun a b => (a.1 == b.1) = false))
    (h : t.get? path = some e) :
    entries (t.modifyAt f path) = (entries t).map (fun x => if x.1 == e.1 then (x.1, f x.2) else x) := by
  have hid : ∀ (l : List (Vec T D × P)), (∀ x ∈ l, (x.1 == e.1) = false) →
      l.map (fun x => if x.1 == e.1 then (x.1, f x.2) else x) = l := by
    intro l hl
    conv_rhs => rw [← List.map_id l]
    exact List.map_congr_left (fun x hx => by simp [hl x hx])
  induction t generalizing path with
  | nil => simp [get?] at h
  | node p pl l r ihl ihr =>
    simp only [entries, List.pairwise_cons, List.pairwise_append, List.mem_append] at hk
    obtain ⟨hk1, hkl, hkr, hlr⟩ := hk
    match path with
    | [] =>
      simp only [get?, Option.some.injEq] at h
      subst h
      simp only [modifyAt, entries, List.map_cons, BEq.rfl, if_true, List.map_append]
      rw [hid, hid]
      · intro x hx; rw [BEq.comm]; exact hk1 x (.inr hx)
      · intro x hx; rw [BEq.comm]; exact hk1 x (.inl hx)
    | false :: rest =>
      simp only [get?] at h
      have hm := get?_mem _ _ _ h
      simp only [modifyAt, entries, List.map_cons, List.map_append]
      rw [ihl _ hkl h, hid (entries r)]
      · simp [hk1 e (.inl hm)]
      · intro x hx; rw [BEq.comm]; exact hlr e hm x hx
    | true :: rest =>
      simp only [get?] at h
      have hm := get?_mem _ _ _ h
      simp only [modifyAt, entries, List.map_cons, List.map_append]
      rw [ihr _ hkr h, hid (entries l)]
      · simp [hk1 e (.inr hm)]
      · intro x hx; exact hlr x hx e hm
end modify

theorem modify_keys {V : Type u} (f : P → P) (t : KdNode V P) (path : Path) :
    (entries (t.modifyAt f path)).map Prod.fst = (entries t).map Prod.fst := by
  induction t generalizing path with
  | nil => simp [modifyAt]
  | node p pl l r ihl ihr =>
    match path with
    | [] => simp [modifyAt, entries]
    | false :: rest => simp [modifyAt, entries, ihl]
    | true :: rest => simp [modifyAt, entries, ihr]

theorem search_modify (f : P → P) (t : KdNode (Vec T D) P) (path : Path) (q : Vec T D) (d : BitVec w) :
    searchHelper q (t.modifyAt f path) d = searchHelper q t d := by
  induction t generalizing path d with
  | nil => simp [modifyAt]
  | node p pl l r ihl ihr =>
    match path with
    | [] => simp [modifyAt, searchHelper]
    | false :: rest => simp [modifyAt, searchHelper, ihl]
    | true :: rest => simp [modifyAt, searchHelper, ihr]

theorem modify_inv (f : P → P) (t : KdNode (Vec T D) P) (path : Path) (d : BitVec w) (h : Inv t d) :
    Inv (t.modifyAt f path) d := by
  induction t generalizing path d with
  | nil => simp [modifyAt, Inv]
  | node p pl l r ihl ihr =>
    obtain ⟨hl, hr, il, ir⟩ := h
    have key : ∀ (s : KdNode (Vec T D) P) (pa : Path) (C : Vec T D → Prop), (∀ e ∈ entries s, C e.1) →
        ∀ e ∈ entries (s.modifyAt f pa), C e.1 := by
      intro s pa C hC e he
      have : e.1 ∈ (entries (s.modifyAt f pa)).map Prod.fst := List.mem_map_of_mem he
      rw [modify_keys] at this
      obtain ⟨e', he', hee⟩ := List.mem_map.1 this
      rw [← hee]; exact hC e' he'
    match path with
    | [] => exact ⟨hl, hr, il, ir⟩
    | false :: rest => exact ⟨key l rest (fun v => v _ < p _ ∧ (p == v) = false) hl, hr, ihl _ _ il, ir⟩
    | true :: rest => exact ⟨hl, key r rest (fun v => ¬ v _ < p _ ∧ (p == v) = false) hr, il, ihr _ _ ir⟩
end KdNode

/-! ### nearest -/

/-- What `nearest` needs of the arithmetic, for the points `dom` it is used with: a point on the far side of the splitting
plane is at least as far away as the plane (`left`, `right`: pruning is sound), the computed distance is symmetric, and
only a point itself is as close to it as it is itself.  Holds for all points in real arithmetic (`nearestSound_real`);
for rounded arithmetic see `nearestSound_fl`. -/
class NearestSound (T : Type u) (D : Nat) [LinearOrder T] [Zero T] [Add T] [Sub T] [Mul T] [Neg T] [HasSqrt T] where
  dom : Vec T D → Prop
  left : ∀ (q p r : Vec T D) (a : Fin D), dom q → dom p → dom r → q a - p a < 0 → ¬ r a < p a →
    ¬ kdDistance r q < stdAbs (q a - p a)
  right : ∀ (q p r : Vec T D) (a : Fin D), dom q → dom p → dom r → ¬ q a - p a < 0 → r a < p a →
    ¬ kdDistance r q < stdAbs (q a - p a)
  comm : ∀ a b : Vec T D, dom a → dom b → kdDistance a b = kdDistance b a
  sep : ∀ p q : Vec T D, dom p → dom q → kdDistance p q ≤ kdDistance q q → p = q

/-- What finding a *stored* point again needs of the arithmetic: the side of a splitting plane is decided as by comparing, and
the computed distance is symmetric and least at the point itself.  Pruning need not be sound. -/
class StoredSound (T : Type u) (D : Nat) [LinearOrder T] [Zero T] [Add T] [Sub T] [Mul T] [HasSqrt T] : Prop where
  side : ∀ a b : T, a - b < 0 ↔ a < b
  comm : ∀ a b : Vec T D, kdDistance a b = kdDistance b a
  self_le : ∀ p q : Vec T D, kdDistance q q ≤ kdDistance p q

/-- The computed distance tells the points of a list apart. -/
def Apart {T : Type u} {D : Nat} [LE T] [Zero T] [Add T] [Sub T] [Mul T] [HasSqrt T] (ps : List (Vec T D)) : Prop :=
  ∀ p ∈ ps, ∀ q ∈ ps, kdDistance p q ≤ kdDistance q q → p = q

theorem Apart.subset {T : Type u} {D : Nat} [LE T] [Zero T] [Add T] [Sub T] [Mul T] [HasSqrt T] {ps qs : List (Vec T D)}
    (h : Apart qs) (hs : ∀ v ∈ ps, v ∈ qs) : Apart ps := fun p hp q hq => h p (hs p hp) q (hs q hq)

namespace KdNode
variable {T : Type u} {D : Nat} {P : Type v} {w : Nat} [NeZero D]
variable [LinearOrder T] [Zero T] [Add T] [Sub T] [Mul T] [Neg T] [HasSqrt T] [BEq (Vec T D)]

/-- What one call of `nearestHelper` on the subtree `t` hanging at `path` achieves. -/
structure NearestPost (q : Vec T D) (t : KdNode (Vec T D) P) (path : Path) (best best' : Path × T) : Prop where
  le_old : best'.2 ≤ best.2
  le_all : ∀ e ∈ entries t, best'.2 ≤ kdDistance e.1 q
  src : best' = best ∨ ∃ rest e, best'.1 = path ++ rest ∧ t.get? rest = some e ∧ best'.2 = kdDistance e.1 q

omit [BEq (Vec T D)] in
theorem best1_post (q p : Vec T D) (path : Path) (best : Path × T) :
    (if kdDistance p q < best.2 then (path, kdDistance p q) else best).2 ≤ best.2 ∧
    (if kdDistance p q < best.2 then (path, kdDistance p q) else best).2 ≤ kdDistance p q ∧
    ((if kdDistance p q < best.2 then (path, kdDistance p q) else best) = best ∨
     (if kdDistance p q < best.2 then (path, kdDistance p q) else best) = (path, kdDistance p q)) := by
  split
  · rename_i h; exact ⟨le_of_lt h, le_refl _, .inr rfl⟩
  · rename_i h; exact ⟨le_refl _, not_lt.1 h, .inl rfl⟩

theorem nearest_post [NearestSound T D] (q : Vec T D) (t : KdNode (Vec T D) P) (path : Path) (d : BitVec w)
    (best : Path × T) (hi : Inv t d) (hq : NearestSound.dom q) (ht : ∀ e ∈ entries t, NearestSound.dom e.1) : NearestPost q t path best (nearestHelper q t path d best) := by
  induction t generalizing path d best with
  | nil => exact ⟨le_refl _, by simp [entries], .inl rfl⟩
  | node p pl l r ihl ihr =>
    obtain ⟨hl, hr, il, ir⟩ := hi
    have dp : NearestSound.dom p := ht (p, pl) (by simp [entries])
    have dl : ∀ e ∈ entries l, NearestSound.dom e.1 := fun e he => ht e (by simp [entries, he])
    have dr : ∀ e ∈ entries r, NearestSound.dom e.1 := fun e he => ht e (by simp [entries, he])
    simp only [nearestHelper]
    obtain ⟨b1, b2, b3⟩ := best1_post q p path best
    revert b1 b2 b3
    generalize (if kdDistance p q < best.2 then (path, kdDistance p q) else best) = best1
    intro b1 b2 b3
    -- how sources lift from the children
    have liftSrc : ∀ (b' : Path × T) (side : Bool) (c : KdNode (Vec T D) P),
        (∀ rest, (node p pl l r).get? (side :: rest) = c.get? rest) →
        ∀ (b0 : Path × T), (b0 = best ∨ ∃ rest e, b0.1 = path ++ rest ∧ (node p pl l r).get? rest = some e ∧ b0.2 = kdDistance e.1 q) →
        (b' = b0 ∨ ∃ rest e, b'.1 = (path ++ [side]) ++ rest ∧ c.get? rest = some e ∧ b'.2 = kdDistance e.1 q) →
        (b' = best ∨ ∃ rest e, b'.1 = path ++ rest ∧ (node p pl l r).get? rest = some e ∧ b'.2 = kdDistance e.1 q) := by
      intro b' side c hc b0 h0 h
      rcases h with rfl | ⟨rest, e, h1, h2, h3⟩
      · exact h0
      · exact .inr ⟨side :: rest, e, by simpa using h1, by rw [hc]; exact h2, h3⟩
    have hget : ∀ rest, (node p pl l r).get? (false :: rest) = l.get? rest := fun _ => rfl
    have hget' : ∀ rest, (node p pl l r).get? (true :: rest) = r.get? rest := fun _ => rfl
    have h1 : best1 = best ∨ ∃ rest e, best1.1 = path ++ rest ∧ (node p pl l r).get? rest = some e ∧ best1.2 = kdDistance e.1 q := by
      rcases b3 with rfl | rfl
      · exact .inl rfl
      · exact .inr ⟨[], (p, pl), by simp, rfl, rfl⟩
    by_cases hd : q (axisOf D d) - p (axisOf D d) < 0
    · simp only [hd, if_true]
      have pL := ihl (path ++ [false]) (d + 1) best1 il dl
      revert pL
      generalize nearestHelper q l (path ++ [false]) (d + 1) best1 = best2
      intro pL
      have h2 := liftSrc best2 false l hget best1 h1 pL.src
      by_cases hp : stdAbs (q (axisOf D d) - p (axisOf D d)) < best2.2
      · simp only [hp, if_true]
        have pR := ihr (path ++ [true]) (d + 1) best2 ir dr
        revert pR
        generalize nearestHelper q r (path ++ [true]) (d + 1) best2 = best3
        intro pR
        refine ⟨le_trans pR.le_old (le_trans pL.le_old b1), ?_, liftSrc best3 true r hget' best2 h2 pR.src⟩
        intro e he
        simp only [entries, List.mem_cons, List.mem_append] at he
        rcases he with rfl | he | he
        · exact le_trans pR.le_old (le_trans pL.le_old b2)
        · exact le_trans pR.le_old (pL.le_all e he)
        · exact pR.le_all e he
      · simp only [hp, if_false]
        refine ⟨le_trans pL.le_old b1, ?_, h2⟩
        intro e he
        simp only [entries, List.mem_cons, List.mem_append] at he
        rcases he with rfl | he | he
        · exact le_trans pL.le_old b2
        · exact pL.le_all e he
        · exact le_trans (not_lt.1 hp) (not_lt.1 (NearestSound.left q p e.1 _ hq dp (dr e he) hd (hr e he).1))
    · simp only [hd, if_false]
      have pR := ihr (path ++ [true]) (d + 1) best1 ir dr
      revert pR
      generalize nearestHelper q r (path ++ [true]) (d + 1) best1 = best2
      intro pR
      have h2 := liftSrc best2 true r hget' best1 h1 pR.src
      by_cases hp : stdAbs (q (axisOf D d) - p (axisOf D d)) < best2.2
      · simp only [hp, if_true]
        have pL := ihl (path ++ [false]) (d + 1) best2 il dl
        revert pL
        generalize nearestHelper q l (path ++ [false]) (d + 1) best2 = best3
        intro pL
        refine ⟨le_trans pL.le_old (le_trans pR.le_old b1), ?_, liftSrc best3 false l hget best2 h2 pL.src⟩
        intro e he
        simp only [entries, List.mem_cons, List.mem_append] at he
        rcases he with rfl | he | he
        · exact le_trans pL.le_old (le_trans pR.le_old b2)
        · exact pL.le_all e he
        · exact le_trans pL.le_old (pR.le_all e he)
      · simp only [hp, if_false]
        refine ⟨le_trans pR.le_old b1, ?_, h2⟩
        intro e he
        simp only [entries, List.mem_cons, List.mem_append] at he
        rcases he with rfl | he | he
        · exact le_trans pR.le_old b2
        · exact le_trans (not_lt.1 hp) (not_lt.1 (NearestSound.right q p e.1 _ hq dp (dl e he) hd (hl e he).1))
        · exact pR.le_all e he

/-- The descent meets a stored query point on its way. -/
theorem stored_post [StoredSound T D] (q : Vec T D) (t : KdNode (Vec T D) P) (path : Path) (d : BitVec w)
    (best : Path × T) (hi : Inv t d) :
    (nearestHelper q t path d best).2 ≤ best.2 ∧
    ((∃ e ∈ entries t, e.1 = q) → (nearestHelper q t path d best).2 ≤ kdDistance q q) ∧
    (nearestHelper q t path d best = best ∨ ∃ rest e, (nearestHelper q t path d best).1 = path ++ rest ∧
      t.get? rest = some e ∧ (nearestHelper q t path d best).2 = kdDistance e.1 q) := by
  induction t generalizing path d best with
  | nil => exact ⟨le_refl _, by simp [entries], .inl rfl⟩
  | node p pl l r ihl ihr =>
    obtain ⟨hl, hr, il, ir⟩ := hi
    simp only [nearestHelper]
    obtain ⟨b1, b2, b3⟩ := best1_post q p path best
    revert b1 b2 b3
    generalize (if kdDistance p q < best.2 then (path, kdDistance p q) else best) = best1
    intro b1 b2 b3
    have liftSrc : ∀ (b' : Path × T) (side : Bool) (c : KdNode (Vec T D) P),
        (∀ rest, (node p pl l r).get? (side :: rest) = c.get? rest) →
        ∀ (b0 : Path × T), (b0 = best ∨ ∃ rest e, b0.1 = path ++ rest ∧ (node p pl l r).get? rest = some e ∧ b0.2 = kdDistance e.1 q) →
        (b' = b0 ∨ ∃ rest e, b'.1 = (path ++ [side]) ++ rest ∧ c.get? rest = some e ∧ b'.2 = kdDistance e.1 q) →
        (b' = best ∨ ∃ rest e, b'.1 = path ++ rest ∧ (node p pl l r).get? rest = some e ∧ b'.2 = kdDistance e.1 q) := by
      intro b' side c hc b0 h0 h
      rcases h with rfl | ⟨rest, e, h1, h2, h3⟩
      · exact h0
      · exact .inr ⟨side :: rest, e, by simpa using h1, by rw [hc]; exact h2, h3⟩
    have hget : ∀ rest, (node p pl l r).get? (false :: rest) = l.get? rest := fun _ => rfl
    have hget' : ∀ rest, (node p pl l r).get? (true :: rest) = r.get? rest := fun _ => rfl
    have h1 : best1 = best ∨ ∃ rest e, best1.1 = path ++ rest ∧ (node p pl l r).get? rest = some e ∧ best1.2 = kdDistance e.1 q := by
      rcases b3 with rfl | rfl
      · exact .inl rfl
      · exact .inr ⟨[], (p, pl), by simp, rfl, rfl⟩
    by_cases hd : q (axisOf D d) - p (axisOf D d) < 0
    · simp only [hd, if_true]
      obtain ⟨L1, L2, L3⟩ := ihl (path ++ [false]) (d + 1) best1 il
      revert L1 L2 L3
      generalize nearestHelper q l (path ++ [false]) (d + 1) best1 = best2
      intro L1 L2 L3
      have h2 := liftSrc best2 false l hget best1 h1 L3
      have hst : (∃ e ∈ entries (node p pl l r), e.1 = q) → best2.2 ≤ kdDistance q q := by
        rintro ⟨e, he, rfl⟩
        simp only [entries, List.mem_cons, List.mem_append] at he
        rcases he with rfl | he | he
        · exact le_trans L1 b2
        · exact L2 ⟨e, he, rfl⟩
        · exact absurd ((StoredSound.side D _ _).1 hd) (hr e he).1
      by_cases hp : stdAbs (q (axisOf D d) - p (axisOf D d)) < best2.2
      · simp only [hp, if_true]
        obtain ⟨R1, R2, R3⟩ := ihr (path ++ [true]) (d + 1) best2 ir
        exact ⟨le_trans R1 (le_trans L1 b1), fun h => le_trans R1 (hst h), liftSrc _ true r hget' best2 h2 R3⟩
      · simp only [hp, if_false]
        exact ⟨le_trans L1 b1, hst, h2⟩
    · simp only [hd, if_false]
      obtain ⟨R1, R2, R3⟩ := ihr (path ++ [true]) (d + 1) best1 ir
      revert R1 R2 R3
      generalize nearestHelper q r (path ++ [true]) (d + 1) best1 = best2
      intro R1 R2 R3
      have h2 := liftSrc best2 true r hget' best1 h1 R3
      have hst : (∃ e ∈ entries (node p pl l r), e.1 = q) → best2.2 ≤ kdDistance q q := by
        rintro ⟨e, he, rfl⟩
        simp only [entries, List.mem_cons, List.mem_append] at he
        rcases he with rfl | he | he
        · exact le_trans R1 b2
        · exact absurd ((StoredSound.side D _ _).2 (hl e he).1) hd
        · exact R2 ⟨e, he, rfl⟩
      by_cases hp : stdAbs (q (axisOf D d) - p (axisOf D d)) < best2.2
      · simp only [hp, if_true]
        obtain ⟨L1, L2, L3⟩ := ihl (path ++ [false]) (d + 1) best2 il
        exact ⟨le_trans L1 (le_trans R1 b1), fun h => le_trans L1 (hst h), liftSrc _ false l hget best2 h2 L3⟩
      · simp only [hp, if_false]
        exact ⟨le_trans R1 b1, hst, h2⟩
end KdNode
end Verif
