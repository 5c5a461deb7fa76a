import Mathlib.Data.List.GetD
import Verif.Proofs.MeshOpposite
import Verif.Proofs.IeeeKdTree
import Verif.Props.IeeeFinite

set_option linter.unusedSectionVars false

/-
Properties C129, C130: building a mesh from triangles with arbitrary coordinates (NaN and infinities included).
-/
namespace Verif
open Spec

/-! ### The kd-tree with arbitrary comparisons -/
namespace KdNode
section
variable {T : Type u} {D : Nat} {P : Type v} {w : Nat} [NeZero D]
variable [Zero T] [Add T] [Sub T] [Mul T] [Neg T] [HasSqrt T] [LT T] [DecidableLT T]

/-- Whatever the comparisons say, the search ends where it began or at a node of the subtree. -/
theorem nearest_any (q : Vec T D) (t : KdNode (Vec T D) P) (path : Path) (d : BitVec w) (best : Path × T) :
    (nearestHelper q t path d best).1 = best.1 ∨
      ∃ rest e, (nearestHelper q t path d best).1 = path ++ rest ∧ t.get? rest = some e := by
  induction t generalizing path d best with
  | nil => exact .inl rfl
  | node p pl l r ihl ihr =>
    have lift : ∀ (b b' : Path × T) (side : Bool) (c : KdNode (Vec T D) P),
        (∀ rest, (node p pl l r).get? (side :: rest) = c.get? rest) →
        (b.1 = best.1 ∨ ∃ rest e, b.1 = path ++ rest ∧ (node p pl l r).get? rest = some e) →
        (b'.1 = b.1 ∨ ∃ rest e, b'.1 = (path ++ [side]) ++ rest ∧ c.get? rest = some e) →
        (b'.1 = best.1 ∨ ∃ rest e, b'.1 = path ++ rest ∧ (node p pl l r).get? rest = some e) := by
      rintro b b' side c hc h0 (h | ⟨rest, e, h1, h2⟩)
      · rw [h]; exact h0
      · exact .inr ⟨side :: rest, e, by simpa using h1, by rw [hc]; exact h2⟩
    have h1 : ∀ b1 : Path × T, b1 = (if kdDistance p q < best.2 then (path, kdDistance p q) else best) →
        (b1.1 = best.1 ∨ ∃ rest e, b1.1 = path ++ rest ∧ (node p pl l r).get? rest = some e) := by
      rintro b1 rfl
      split
      · exact .inr ⟨[], (p, pl), by simp, rfl⟩
      · exact .inl rfl
    simp only [nearestHelper]
    revert h1
    generalize (if kdDistance p q < best.2 then (path, kdDistance p q) else best) = best1
    intro h1
    split
    · have h2 := lift _ _ false l (fun _ => rfl) (h1 _ rfl) (ihl (path ++ [false]) (d + 1) _)
      split
      · exact lift _ _ true r (fun _ => rfl) h2 (ihr (path ++ [true]) (d + 1) _)
      · exact h2
    · have h2 := lift _ _ true r (fun _ => rfl) (h1 _ rfl) (ihr (path ++ [true]) (d + 1) _)
      split
      · exact lift _ _ false l (fun _ => rfl) h2 (ihl (path ++ [false]) (d + 1) _)
      · exact h2

theorem modify_any {V : Type u} (f : P → P) (t : KdNode V P) (path : Path) (e : V × P)
    (h : e ∈ entries (t.modifyAt f path)) : e ∈ entries t ∨ ∃ e0 ∈ entries t, e = (e0.1, f e0.2) := by
  induction t generalizing path with
  | nil => simp [modifyAt, entries] at h
  | node p pl l r ihl ihr =>
    match path with
    | [] =>
      simp only [modifyAt, entries, List.mem_cons, List.mem_append] at h
      rcases h with rfl | h | h
      · exact .inr ⟨(p, pl), by simp [entries], rfl⟩
      · exact .inl (by simp [entries, h])
      · exact .inl (by simp [entries, h])
    | false :: rest =>
      simp only [modifyAt, entries, List.mem_cons, List.mem_append] at h
      rcases h with rfl | h | h
      · exact .inl (by simp [entries])
      · rcases ihl rest h with h | ⟨e0, h0, he⟩
        · exact .inl (by simp [entries, h])
        · exact .inr ⟨e0, by simp [entries, h0], he⟩
      · exact .inl (by simp [entries, h])
    | true :: rest =>
      simp only [modifyAt, entries, List.mem_cons, List.mem_append] at h
      rcases h with rfl | h | h
      · exact .inl (by simp [entries])
      · exact .inl (by simp [entries, h])
      · rcases ihr rest h with h | ⟨e0, h0, he⟩
        · exact .inl (by simp [entries, h])
        · exact .inr ⟨e0, by simp [entries, h0], he⟩

theorem modify_ne_nil {V : Type u} (f : P → P) (t : KdNode V P) (path : Path) (h : t ≠ nil) : t.modifyAt f path ≠ nil := by
  cases t with
  | nil => exact absurd rfl h
  | node p pl l r => match path with
    | [] => simp [modifyAt]
    | false :: _ => simp [modifyAt]
    | true :: _ => simp [modifyAt]
end
end KdNode

namespace KdTree
section
variable {T : Type u} {D : Nat} {P : Type v} {w : Nat} [NeZero D]
variable [Zero T] [Add T] [Sub T] [Mul T] [Neg T] [HasSqrt T] [LT T] [DecidableLT T]
open KdNode

theorem nearestPath_any (t : KdTree T D P w) (h : t.root ≠ .nil) (q : Vec T D) :
    ∃ path e, t.nearestPath q = .ok path ∧ t.root.get? path = some e := by
  unfold nearestPath
  cases hr : t.root with
  | nil => exact absurd hr h
  | node p pl l r =>
    rcases nearest_any q (.node p pl l r) [] (0 : BitVec w) ([], kdDistance q p) with h1 | ⟨rest, e, h1, h2⟩
    · exact ⟨[], (p, pl), by dsimp only; rw [h1], rfl⟩
    · exact ⟨rest, e, by dsimp only; rw [h1, List.nil_append], h2⟩

theorem nearest_entry (t : KdTree T D P w) (h : t.root ≠ .nil) (q : Vec T D) :
    ∃ e ∈ entries t.root, t.nearest q = .ok e := by
  obtain ⟨path, e, h1, h2⟩ := nearestPath_any t h q
  exact ⟨e, get?_mem _ _ _ h2, by unfold nearest; rw [h1]; dsimp only; rw [h2]⟩
end
end KdTree

/-! ### Welding with an arbitrary comparison -/
section
variable {V : Type} [BEq V]

/-- Every stored point is one of the corners, and the point of corner `k` is corner `k` or compares equal to it. -/
theorem weld_any (cs : List V) : (∀ p ∈ (weld cs).1, p ∈ cs) ∧
    ∀ k (hk : k < cs.length), ∃ p, (weld cs).1[(weld cs).2.getD k 0]? = some p ∧ (p = cs[k] ∨ (p == cs[k]) = true) := by
  induction cs using List.reverseRecOn with
  | nil => exact ⟨by simp [weld], by simp⟩
  | append_singleton cs c ih =>
    rw [weld_append]
    simp only [List.foldl_cons, List.foldl_nil]
    have hl := weld_length cs
    generalize hs : weld cs = s at ih hl ⊢
    obtain ⟨ps, a⟩ := s
    dsimp only at ih hl
    obtain ⟨ih1, ih2⟩ := ih
    unfold weldStep
    dsimp only
    cases hf : ps.findIdx? (· == c) with
    | some i =>
      refine ⟨fun p hp => by simp [ih1 p hp], ?_⟩
      intro k hk
      dsimp only
      by_cases hk' : k < cs.length
      · obtain ⟨p, h1, h2⟩ := ih2 k hk'
        refine ⟨p, ?_, by rw [List.getElem_append_left hk']; exact h2⟩
        rw [← h1, List.getD_eq_getElem?_getD, List.getD_eq_getElem?_getD, List.getElem?_append_left (by omega)]
      · have hke : k = cs.length := by simp at hk; omega
        subst hke
        obtain ⟨hi, he, _⟩ := List.findIdx?_eq_some_iff_getElem.1 hf
        refine ⟨ps[i], ?_, .inr (by simpa using he)⟩
        rw [List.getD_eq_getElem?_getD, List.getElem?_append_right (by omega)]
        simp [hl, hi]
    | none =>
      refine ⟨fun p hp => ?_, ?_⟩
      · simp only [List.mem_append, List.mem_singleton] at hp ⊢
        rcases hp with hp | hp
        · exact .inl (ih1 p hp)
        · exact .inr hp
      intro k hk
      dsimp only
      by_cases hk' : k < cs.length
      · obtain ⟨p, h1, h2⟩ := ih2 k hk'
        have hlt := (List.getElem?_eq_some_iff.1 h1).1
        refine ⟨p, ?_, by rw [List.getElem_append_left hk']; exact h2⟩
        rw [List.getD_eq_getElem?_getD, List.getElem?_append_left (l₁ := a) (by omega), ← List.getD_eq_getElem?_getD,
          List.getElem?_append_left hlt, h1]
      · have hke : k = cs.length := by simp at hk; omega
        subst hke
        refine ⟨c, ?_, .inl (by simp)⟩
        rw [List.getD_eq_getElem?_getD, List.getElem?_append_right (l₁ := a) (by omega)]
        simp [hl]
end

/-! ### Opposite links with arbitrary comparisons -/
section
variable {T : Type} [Zero T] [Add T] [Sub T] [Mul T] [Neg T] [HasSqrt T] [LT T] [DecidableLT T] [BEq (Vec T 3)]
open KdNode

section
variable (ts : List (Vec T 3 × Vec T 3 × Vec T 3)) (o : Nat → Nat)

/-- The closed form of the mesh of `ts` for any comparison. -/
abbrev anyMesh : HalfedgeMesh (Vec T 3) := meshOfO o (weld (corners ts)).1 (weld (corners ts)).2

/-- The point stored for corner `k`. -/
def ptAt (k : Nat) : Option (Vec T 3) := (weld (corners ts)).1[(weld (corners ts)).2.getD k 0]?

theorem anyMesh_length : (weld (corners ts)).2.length = 3 * ts.length := by rw [weld_length, corners_length]

theorem ptAt_some {k : Nat} (hk : k < 3 * ts.length) : ∃ p, ptAt ts k = some p := by
  obtain ⟨p, h, _⟩ := (weld_any (corners ts)).2 k (by rw [corners_length]; exact hk)
  exact ⟨p, h⟩

theorem anyMesh_he {k : Nat} (hk : k < 3 * ts.length) :
    vecGet (anyMesh ts o).halfedges k = .ok (heOfO o (weld (corners ts)).2 k) :=
  meshOfO_he _ _ _ (by rw [anyMesh_length]; exact hk)

theorem anyMesh_heVector {k : Nat} (hk : k < 3 * ts.length) {p : Vec T 3} (hp : ptAt ts k = some p) :
    (anyMesh ts o).heVector (heOfO o (weld (corners ts)).2 k) = .ok p := by
  rw [meshOfO_heVector _ _ _ (weld_welded _) (by rw [anyMesh_length]; exact hk)]
  exact vecGet_of_getElem? hp

theorem anyMesh_heNextVector {k : Nat} (hk : k < 3 * ts.length) {p : Vec T 3} (hp : ptAt ts (nextCorner k) = some p) :
    (anyMesh ts o).heNextVector (heOfO o (weld (corners ts)).2 k) = .ok p := by
  rw [meshOfO_heNextVector _ _ _ (weld_welded _) (anyMesh_length ts) (by rw [anyMesh_length]; exact hk)]
  exact vecGet_of_getElem? hp

/-- All payloads of the tree are half-edges. -/
def PayOk {w : Nat} (n : Nat) (kd : KdTree T 3 (List Nat) w) : Prop := ∀ e ∈ entries kd.root, ∀ j ∈ e.2, j < n

theorem index_any (w : Nat) : ∃ kd : KdTree T 3 (List Nat) w,
    (List.range (3 * ts.length)).foldlM (oppositeIndexRound (anyMesh ts o)) KdTree.empty = .ok kd ∧
    PayOk (3 * ts.length) kd ∧ (0 < 3 * ts.length → kd.root ≠ .nil) := by
  have key : ∀ j ≤ 3 * ts.length, ∃ kd : KdTree T 3 (List Nat) w,
      (List.range j).foldlM (oppositeIndexRound (anyMesh ts o)) KdTree.empty = .ok kd ∧ PayOk (3 * ts.length) kd ∧
      (0 < j → kd.root ≠ .nil) := by
    intro j hj
    induction j with
    | zero => exact ⟨_, rfl, by simp [PayOk, KdTree.empty, entries], by omega⟩
    | succ j ih =>
      obtain ⟨kd, h1, h2, h3⟩ := ih (by omega)
      obtain ⟨p, hp⟩ := ptAt_some ts (show j < 3 * ts.length by omega)
      have step : ∃ kd' : KdTree T 3 (List Nat) w,
          (if kd.search p then kd.modifyNearest p (· ++ [j]) else .ok (kd.insert p [j]).1) = .ok kd' ∧
          PayOk (3 * ts.length) kd' ∧ kd'.root ≠ .nil := by
        by_cases hs : kd.search p = true
        · rw [if_pos hs]
          have hne : kd.root ≠ .nil := by
            intro h
            unfold KdTree.search at hs
            rw [h] at hs
            simp [searchHelper] at hs
          obtain ⟨path, e, g1, g2⟩ := KdTree.nearestPath_any kd hne p
          refine ⟨⟨kd.root.modifyAt (· ++ [j]) path, kd.size⟩, by unfold KdTree.modifyNearest; rw [g1], ?_, modify_ne_nil _ _ _ hne⟩
          intro e he i hi
          rcases modify_any _ _ _ _ he with he | ⟨e0, he0, rfl⟩
          · exact h2 e he i hi
          · simp only [List.mem_append, List.mem_singleton] at hi
            rcases hi with hi | rfl
            · exact h2 e0 he0 i hi
            · omega
        · rw [if_neg hs]
          refine ⟨_, rfl, ?_, ?_⟩
          · intro e he i hi
            rcases insert_mem p [j] kd.root (0 : BitVec w) e he with rfl | he
            · simp only [List.mem_singleton] at hi; omega
            · exact h2 e he i hi
          · unfold KdTree.insert
            dsimp only
            cases kd.root with
            | nil => simp [insertHelper]
            | node a b c d => unfold insertHelper; split <;> (try split) <;> simp
      obtain ⟨kd', g1, g2, g3⟩ := step
      refine ⟨kd', ?_, g2, fun _ => g3⟩
      rw [List.range_succ, List.foldlM_append, h1, ok_bind]
      simp only [List.foldlM_cons, List.foldlM_nil]
      unfold oppositeIndexRound
      rw [anyMesh_he ts o (by omega), ok_bind, anyMesh_heVector ts o (by omega) hp, ok_bind, g1, ok_bind]
      rfl
  exact key _ le_rfl

theorem findOpposite_any (start : Vec T 3) (l : List Nat) (hl : ∀ j ∈ l, j < 3 * ts.length) :
    ∃ r, findOpposite (anyMesh ts o) start l = .ok r ∧
      ∀ j, r = some j → j < 3 * ts.length ∧ ∃ p, ptAt ts (nextCorner j) = some p ∧ (p == start) = true := by
  induction l with
  | nil => exact ⟨none, rfl, by simp⟩
  | cons j l ih =>
    obtain ⟨p, hp⟩ := ptAt_some ts (nextCorner_lt (hl j (by simp)))
    obtain ⟨r, h1, h2⟩ := ih (fun x hx => hl x (by simp [hx]))
    unfold findOpposite
    rw [anyMesh_he ts o (hl j (by simp)), ok_bind, anyMesh_heNextVector ts o (hl j (by simp)) hp, ok_bind, h1]
    by_cases h : (p == start) = true
    · exact ⟨some j, if_pos h, fun i hi => by
        cases hi; exact ⟨hl j (by simp), p, hp, h⟩⟩
    · exact ⟨r, if_neg h, h2⟩

/-- `j` may have been chosen as the opposite of `k`. -/
def Chosen (j k : Nat) : Prop :=
  ∃ p q, ptAt ts (nextCorner j) = some p ∧ ptAt ts (nextCorner k) = some q ∧ (p == q) = true

/-- Every link is still the initial one or was chosen. -/
def LinksOk (M : Nat) : Prop :=
  ∀ k < 3 * ts.length, o k = M - 1 ∨ (o k < 3 * ts.length ∧ (Chosen ts (o k) k ∨ Chosen ts k (o k)))

theorem LinksOk.update {M : Nat} {o : Nat → Nat} (h : LinksOk ts o M) {a b : Nat} (hb : b < 3 * ts.length)
    (hc : Chosen ts b a ∨ Chosen ts a b) : LinksOk ts (Function.update o a b) M := by
  intro i hi
  by_cases hia : i = a
  · subst hia; rw [Function.update_self]; exact .inr ⟨hb, hc⟩
  · rw [Function.update_of_ne hia]; exact h i hi

theorem set_round_any {w : Nat} (kd : KdTree T 3 (List Nat) w) (hkd : PayOk (3 * ts.length) kd)
    (hne : kd.root ≠ .nil) {k : Nat} (hk : k < 3 * ts.length) :
    (∃ j < 3 * ts.length, Chosen ts j k ∧ ∀ dbg, oppositeSetRound dbg kd (anyMesh ts o) k
      = .ok (anyMesh ts (Function.update (Function.update o k j) j k))) ∨
    ∀ dbg, oppositeSetRound dbg kd (anyMesh ts o) k = if dbg then .error .assertFailed else .ok (anyMesh ts o) := by
  obtain ⟨p, hp⟩ := ptAt_some ts hk
  obtain ⟨q, hq⟩ := ptAt_some ts (nextCorner_lt hk)
  obtain ⟨e, he, hnear⟩ := KdTree.nearest_entry kd hne p
  obtain ⟨r, hr1, hr2⟩ := findOpposite_any ts o q e.2 (hkd e he)
  cases r with
  | none =>
    refine .inr fun dbg => ?_
    unfold oppositeSetRound
    rw [anyMesh_he ts o hk, ok_bind, anyMesh_heNextVector ts o hk hq, ok_bind, anyMesh_heVector ts o hk hp, ok_bind,
      hnear, ok_bind, hr1, ok_bind]
    cases dbg <;> rfl
  | some j =>
    obtain ⟨hj, p', hp', hpq⟩ := hr2 j rfl
    have hc : Chosen ts j k := ⟨p', q, hp', hq, hpq⟩
    refine .inl ⟨j, hj, hc, ?_⟩
    · intro dbg
      unfold oppositeSetRound
      rw [anyMesh_he ts o hk, ok_bind, anyMesh_heNextVector ts o hk hq, ok_bind, anyMesh_heVector ts o hk hp, ok_bind,
        hnear, ok_bind, hr1, ok_bind]
      dsimp only
      rw [anyMesh_he ts o hj, ok_bind]
      congr 1
      show HalfedgeMesh.mk _ _ _ _ = HalfedgeMesh.mk _ _ _ _
      congr 1
      show (((List.range (weld (corners ts)).2.length).map (heOfO o (weld (corners ts)).2)).modify k _).modify _ _ = _
      rw [show (heOfO o (weld (corners ts)).2 j).idx = j from rfl,
        show (heOfO o (weld (corners ts)).2 k).idx = k from rfl,
        modify_heOfO o _ k _, modify_heOfO _ _ _ _]

/-- The whole of `set_opposite_halfedges`. -/
theorem setOpposite_any (w M : Nat) (ho : LinksOk ts o M) : ∃ o', LinksOk ts o' M ∧
    setOppositeHalfedges false w (anyMesh ts o) = .ok (anyMesh ts o') ∧
    ((setOppositeHalfedges true w (anyMesh ts o) = .ok (anyMesh ts o') ∧ ∀ k < 3 * ts.length, ∃ j, Chosen ts j k) ∨
      setOppositeHalfedges true w (anyMesh ts o) = .error .assertFailed) := by
  obtain ⟨kd, h1, h2, h3⟩ := index_any ts o w
  have hlen : (anyMesh ts o).halfedges.length = 3 * ts.length := by simp [meshOfO, anyMesh_length]
  unfold setOppositeHalfedges
  rw [hlen, h1, ok_bind, ok_bind]
  have key : ∀ j ≤ 3 * ts.length, ∃ o', LinksOk ts o' M ∧
      (List.range j).foldlM (oppositeSetRound false kd) (anyMesh ts o) = .ok (anyMesh ts o') ∧
      (((List.range j).foldlM (oppositeSetRound true kd) (anyMesh ts o) = .ok (anyMesh ts o') ∧ ∀ k < j, ∃ i, Chosen ts i k) ∨
        (List.range j).foldlM (oppositeSetRound true kd) (anyMesh ts o) = .error .assertFailed) := by
    intro j hj
    induction j with
    | zero => exact ⟨o, ho, rfl, .inl ⟨rfl, by simp⟩⟩
    | succ j ih =>
      obtain ⟨o1, g1, g2, g3⟩ := ih (by omega)
      have hs : ∀ (dbg : Bool) (x : HalfedgeMesh (Vec T 3)), (List.range j).foldlM (oppositeSetRound dbg kd) (anyMesh ts o) = .ok x →
          (List.range (j + 1)).foldlM (oppositeSetRound dbg kd) (anyMesh ts o) = oppositeSetRound dbg kd x j := by
        intro dbg x hx
        rw [List.range_succ, List.foldlM_append, hx, ok_bind]
        simp only [List.foldlM_cons, List.foldlM_nil]
        cases oppositeSetRound dbg kd x j <;> rfl
      have he : (List.range j).foldlM (oppositeSetRound true kd) (anyMesh ts o) = .error .assertFailed →
          (List.range (j + 1)).foldlM (oppositeSetRound true kd) (anyMesh ts o) = .error .assertFailed := by
        intro h
        rw [List.range_succ, List.foldlM_append, h, error_bind]
      have hj' : j < 3 * ts.length := by omega
      rcases set_round_any ts o1 kd h2 (h3 (by omega)) hj' with ⟨i, hi, k2, k3⟩ | k3
      · refine ⟨_, (g1.update ts hi (.inl k2)).update ts hj' (.inr k2), by rw [hs false _ g2, k3], ?_⟩
        rcases g3 with ⟨g3, g4⟩ | g3
        · refine .inl ⟨by rw [hs true _ g3, k3], fun i hi => ?_⟩
          rcases Nat.lt_succ_iff_lt_or_eq.1 hi with hi | rfl
          · exact g4 i hi
          · exact ⟨_, k2⟩
        · exact .inr (he g3)
      · refine ⟨o1, g1, by rw [hs false _ g2, k3]; rfl, .inr ?_⟩
        rcases g3 with ⟨g3, _⟩ | g3
        · rw [hs true _ g3, k3]; rfl
        · exact he g3
  exact key _ le_rfl

theorem buildMesh_any (M w : Nat) (hM : 3 * ts.length < M) : ∃ o', LinksOk ts o' M ∧
    buildMesh false M w ts = .ok (anyMesh ts o') ∧
    ((buildMesh true M w ts = .ok (anyMesh ts o') ∧ ∀ k < 3 * ts.length, ∃ j, Chosen ts j k) ∨
      buildMesh true M w ts = .error .assertFailed) := by
  obtain ⟨o', h1, h2, h3⟩ := setOpposite_any ts (fun _ => M - 1) w M (fun _ _ => .inl rfl)
  have hb : ∀ dbg, buildMesh dbg M w ts = setOppositeHalfedges dbg w (anyMesh ts (fun _ => M - 1)) := by
    intro dbg
    unfold buildMesh
    rw [addTriangles_eq dbg M ts hM, ok_bind, meshOf_eq]
  rw [hb, hb]
  exact ⟨o', h1, h2, h3⟩

/-! ### Validity checks never fault -/

theorem allValid_release {α : Type} (valid : α → Res Bool) (xs : List α) (h : ∀ x ∈ xs, ∃ b, valid x = .ok b) :
    ∃ b, allValid (fun x => assertedValid false (valid x)) xs = .ok b ∧ ((∃ x ∈ xs, valid x = .ok false) → b = false) := by
  induction xs with
  | nil => exact ⟨true, rfl, by simp⟩
  | cons x xs ih =>
    obtain ⟨b, hb⟩ := h x (by simp)
    obtain ⟨c, hc, hc'⟩ := ih fun y hy => h y (by simp [hy])
    cases b with
    | false => exact ⟨false, by unfold allValid assertedValid; rw [hb]; rfl, fun _ => rfl⟩
    | true =>
      refine ⟨c, ?_, ?_⟩
      · unfold allValid
        rw [show assertedValid false (valid x) = .ok true by unfold assertedValid; rw [hb]; rfl, ok_bind, if_pos rfl, hc]
      · rintro ⟨y, hy, hv⟩
        rcases List.mem_cons.1 hy with rfl | hy
        · rw [hb] at hv; cases hv
        · exact hc' ⟨y, hy, hv⟩

theorem halfedgeValid_any {M : Nat} {o : Nat → Nat} (ho : LinksOk ts o M) {k : Nat} (hk : k < 3 * ts.length) :
    ∃ b, halfedgeValidImpl M (anyMesh ts o) (heOfO o (weld (corners ts)).2 k) = .ok b ∧ (o k = M - 1 → b = false) := by
  have hk' : k < (weld (corners ts)).2.length := by rw [anyMesh_length]; exact hk
  unfold halfedgeValidImpl
  split
  · exact ⟨false, rfl, fun _ => rfl⟩
  · rename_i hv
    have hok : o k ≠ M - 1 := by
      intro h
      apply hv
      simp [heOfO, handleValid, invalidHandle, h]
    have hlt : o k < 3 * ts.length := ((ho k hk).resolve_left hok).1
    rw [show (anyMesh ts o).heVertex (heOfO o (weld (corners ts)).2 k) = _ from meshOfO_heVertex o _ _ (weld_welded _) hk', ok_bind,
      show (anyMesh ts o).heOpposite (heOfO o (weld (corners ts)).2 k) = _ from anyMesh_he ts o hlt,
      show (anyMesh ts o).heNext (heOfO o (weld (corners ts)).2 k) = _ from meshOfO_heNext o _ _ (anyMesh_length ts) hk',
      show (anyMesh ts o).hePrev (heOfO o (weld (corners ts)).2 k) = _ from meshOfO_hePrev o _ _ (anyMesh_length ts) hk']
    simp only [ok_bind]
    split
    · exact ⟨false, rfl, fun _ => rfl⟩
    · split
      · exact ⟨false, rfl, fun _ => rfl⟩
      · split
        · exact ⟨false, rfl, fun _ => rfl⟩
        · exact ⟨_, rfl, fun h => absurd h hok⟩

theorem isValid_any {M : Nat} {o : Nat → Nat} (ho : LinksOk ts o M) :
    ∃ b, (anyMesh ts o).isValid false M = .ok b ∧ ((∃ k < 3 * ts.length, o k = M - 1) → b = false) := by
  obtain ⟨bv, h1, _⟩ := allValid_release (fun v : MeshVertex => .ok (vertexValidImpl M v)) (anyMesh ts o).vertices (fun v _ => ⟨_, rfl⟩)
  obtain ⟨bf, h3, _⟩ := allValid_release (fun f : Facet => .ok (facetValidImpl M f)) (anyMesh ts o).facets (fun v _ => ⟨_, rfl⟩)
  have hmem : ∀ h ∈ (anyMesh ts o).halfedges, ∃ k < 3 * ts.length, h = heOfO o (weld (corners ts)).2 k := by
    intro h hh
    obtain ⟨k, hk, rfl⟩ := List.mem_map.1 hh
    exact ⟨k, by rw [List.mem_range, anyMesh_length] at hk; exact hk, rfl⟩
  obtain ⟨bh, h2, h2'⟩ := allValid_release (halfedgeValidImpl M (anyMesh ts o)) (anyMesh ts o).halfedges (by
    intro h hh
    obtain ⟨k, hk, rfl⟩ := hmem h hh
    obtain ⟨b, hb, _⟩ := halfedgeValid_any ts ho hk
    exact ⟨b, hb⟩)
  unfold HalfedgeMesh.isValid
  rw [h1, ok_bind, h2, ok_bind, h3]
  cases bv with
  | false => exact ⟨false, rfl, fun _ => rfl⟩
  | true => cases bh with
    | false => exact ⟨false, rfl, fun _ => rfl⟩
    | true =>
      refine ⟨bf, rfl, ?_⟩
      rintro ⟨k, hk, hok⟩
      obtain ⟨b, hb, hb'⟩ := halfedgeValid_any ts ho hk
      have : true = false := h2' ⟨_, List.mem_map.2 ⟨k, by rw [List.mem_range, anyMesh_length]; exact hk, rfl⟩, by rw [hb, hb' hok]⟩
      cases this

theorem anyMesh_built (dbg : Bool) (M : Nat) (hM : 3 * ts.length < M) (o : Nat → Nat) : BuiltFrom dbg M ts (anyMesh ts o) := by
  refine ⟨_, addTriangles_eq dbg M ts hM, rfl, rfl, rfl, ?_⟩
  simp only [meshOf, hesListOf, meshOfO, List.map_map]
  rfl

/-- **C129.**  Building a mesh never goes out of range or throws, whatever the coordinates are and however they compare: a release
build yields a mesh with the given triangles in which every link that was set leads to a half-edge ending at an equal point. -/
theorem C129_release (M w : Nat) (hM : 3 * ts.length < M) : ∃ m, buildMesh false M w ts = .ok m ∧ BuiltFrom false M ts m ∧
    (∀ h ∈ m.halfedges, h.opp ≠ invalidHandle M → ∃ h' p q, m.heOpposite h = .ok h' ∧ m.heNextVector h = .ok p ∧
      m.heNextVector h' = .ok q ∧ ((q == p) = true ∨ (p == q) = true)) ∧
    ∃ b, m.isValid false M = .ok b := by
  obtain ⟨o, ho, h1, _⟩ := buildMesh_any ts M w hM
  refine ⟨_, h1, anyMesh_built ts false M hM o, ?_, ?_⟩
  · intro h hh hopp
    obtain ⟨k, hk, rfl⟩ := List.mem_map.1 hh
    rw [List.mem_range, anyMesh_length] at hk
    obtain ⟨hlt, hc⟩ := (ho k hk).resolve_left hopp
    obtain ⟨p, hp⟩ := ptAt_some ts (nextCorner_lt hk)
    obtain ⟨q, hq⟩ := ptAt_some ts (nextCorner_lt hlt)
    refine ⟨_, p, q, anyMesh_he ts o hlt, anyMesh_heNextVector ts o hk hp, anyMesh_heNextVector ts o hlt hq, ?_⟩
    rcases hc with ⟨a, b, ha, hb, hab⟩ | ⟨a, b, ha, hb, hab⟩
    · rw [hq] at ha; rw [hp] at hb; cases ha; cases hb; exact .inl hab
    · rw [hp] at ha; rw [hq] at hb; cases ha; cases hb; exact .inr hab
  · obtain ⟨b, hb, _⟩ := isValid_any ts ho
    exact ⟨b, hb⟩

/-- **C129.**  A debug build yields the same mesh or stops at an assertion. -/
theorem C129_debug (M w : Nat) (hM : 3 * ts.length < M) :
    buildMesh true M w ts = buildMesh false M w ts ∨ buildMesh true M w ts = .error .assertFailed := by
  obtain ⟨o, _, h1, ⟨h2, _⟩ | h2⟩ := buildMesh_any ts M w hM
  · exact .inl (by rw [h1, h2])
  · exact .inr h2

/-! ### A point equal to nothing -/

/-- A point that compares equal to no corner gets its own vertex. -/
theorem weld_private {V : Type} [BEq V] (cs : List V) (k k' : Nat) (hk : k < cs.length) (hk' : k' < cs.length) (hne : k ≠ k')
    (he : (weld cs).2.getD k 0 = (weld cs).2.getD k' 0) :
    ∃ p c, (weld cs).1[(weld cs).2.getD k 0]? = some p ∧ c ∈ cs ∧ (p == c) = true := by
  induction cs using List.reverseRecOn generalizing k k' with
  | nil => simp at hk
  | append_singleton cs c ih =>
    wlog hlt : k < k' generalizing k k' with H
    · rw [he]; exact H k' k hk' hk hne.symm he.symm (by omega)
    rw [weld_append] at he ⊢
    simp only [List.foldl_cons, List.foldl_nil] at he ⊢
    have hl := weld_length cs
    have hw := weld_welded cs
    generalize hs : weld cs = s at ih hl hw he ⊢
    obtain ⟨ps, a⟩ := s
    dsimp only at ih hl hw
    simp only [List.length_append, List.length_singleton] at hk hk'
    have hkl : k < a.length := by omega
    unfold weldStep at he ⊢
    dsimp only at he ⊢
    cases hf : ps.findIdx? (· == c) with
    | some i =>
      rw [hf] at he
      dsimp only at he ⊢
      rw [List.getD_append _ _ _ _ hkl] at he ⊢
      by_cases h' : k' < cs.length
      · rw [List.getD_append _ _ _ _ (by omega)] at he
        obtain ⟨p, d, h1, h2, h3⟩ := ih k k' (by omega) h' hne he
        exact ⟨p, d, h1, by simp [h2], h3⟩
      · have hk'e : k' = a.length := by omega
        rw [hk'e, List.getD_append_right _ _ _ _ le_rfl] at he
        obtain ⟨hi, hb, _⟩ := List.findIdx?_eq_some_iff_getElem.1 hf
        simp at he
        refine ⟨ps[i], c, ?_, by simp, by simpa using hb⟩
        rw [List.getD_eq_getElem?_getD, he, List.getElem?_eq_getElem hi]
    | none =>
      rw [hf] at he
      dsimp only at he ⊢
      have hlt' := getD_lt ps a hw hkl
      rw [List.getD_append _ _ _ _ hkl] at he ⊢
      by_cases h' : k' < cs.length
      · rw [List.getD_append _ _ _ _ (by omega)] at he
        obtain ⟨p, d, h1, h2, h3⟩ := ih k k' (by omega) h' hne he
        exact ⟨p, d, by rw [List.getElem?_append_left hlt', h1], by simp [h2], h3⟩
      · have hk'e : k' = a.length := by omega
        rw [hk'e, List.getD_append_right _ _ _ _ le_rfl] at he
        simp at he
        rw [List.getD_eq_getElem?_getD] at hlt'
        omega

theorem unequal_any (M w : Nat) (hM : 3 * ts.length < M) (k : Nat) (hk : k < 3 * ts.length) (c : Vec T 3)
    (hc : (corners ts)[k]? = some c) (h1 : ∀ p ∈ corners ts, (p == c) = false) (h2 : ∀ p ∈ corners ts, (c == p) = false) :
    buildMesh true M w ts = .error .assertFailed ∧
    ∃ m, buildMesh false M w ts = .ok m ∧ m.isValid false M = .ok false ∧
      (∃ h ∈ m.halfedges, m.heNextVector h = .ok c ∧ h.opp = invalidHandle M ∧ m.heOpposite h = .error .outOfRange) ∧
      ∃ h ∈ m.halfedges, m.heVector h = .ok c ∧ ∀ h' ∈ m.halfedges, h'.vertex = h.vertex → h' = h := by
  obtain ⟨o, ho, hr, hd⟩ := buildMesh_any ts M w hM
  have hkl : k < (corners ts).length := by rw [corners_length]; exact hk
  have hpk : ptAt ts k = some c := by
    obtain ⟨p, hp, he⟩ := (weld_any (corners ts)).2 k hkl
    rw [List.getElem?_eq_getElem hkl, Option.some.injEq] at hc
    rw [hc] at he
    rcases he with rfl | he
    · exact hp
    · have := (weld_any (corners ts)).1 p (List.mem_of_getElem? hp)
      rw [h1 p this] at he; cases he
  have hmem : ∀ {j : Nat} {p : Vec T 3}, ptAt ts j = some p → p ∈ corners ts := fun h =>
    (weld_any (corners ts)).1 _ (List.mem_of_getElem? h)
  have hprev : prevCorner k < 3 * ts.length := prevCorner_lt hk
  have hno : ∀ j, ¬ Chosen ts j (prevCorner k) ∧ ¬ Chosen ts (prevCorner k) j := by
    refine fun j => ⟨?_, ?_⟩
    · rintro ⟨p, q, hp, hq, hpq⟩
      rw [next_prev, hpk] at hq; cases hq
      rw [h1 p (hmem hp)] at hpq; cases hpq
    · rintro ⟨p, q, hp, hq, hpq⟩
      rw [next_prev, hpk] at hp; cases hp
      rw [h2 q (hmem hq)] at hpq; cases hpq
  have hopp : o (prevCorner k) = M - 1 := by
    rcases ho _ hprev with h | ⟨_, h | h⟩
    · exact h
    · exact absurd h (hno _).1
    · exact absurd h (hno _).2
  refine ⟨?_, _, hr, ?_, ?_, ?_⟩
  · rcases hd with ⟨_, hd⟩ | hd
    · obtain ⟨j, hj⟩ := hd _ hprev
      exact absurd hj (hno j).1
    · exact hd
  · obtain ⟨b, hb, hb'⟩ := isValid_any ts ho
    rw [hb, hb' ⟨_, hprev, hopp⟩]
  · refine ⟨heOfO o (weld (corners ts)).2 (prevCorner k), List.mem_map.2 ⟨_, by rw [List.mem_range, anyMesh_length]; exact hprev, rfl⟩,
      anyMesh_heNextVector ts o hprev (by rw [next_prev]; exact hpk), hopp, ?_⟩
    show vecGet (anyMesh ts o).halfedges (o (prevCorner k)) = _
    unfold vecGet
    rw [hopp, List.getElem?_eq_none (by simp [meshOfO, anyMesh_length]; omega)]
  · refine ⟨heOfO o (weld (corners ts)).2 k, List.mem_map.2 ⟨_, by rw [List.mem_range, anyMesh_length]; exact hk, rfl⟩,
      anyMesh_heVector ts o hk hpk, ?_⟩
    intro h' hh' hv
    obtain ⟨k', hk', rfl⟩ := List.mem_map.1 hh'
    rw [List.mem_range, anyMesh_length] at hk'
    by_contra hne
    have hkk : k ≠ k' := by rintro rfl; exact hne rfl
    obtain ⟨p, d, g1, g2, g3⟩ := weld_private (corners ts) k k' hkl (by rw [corners_length]; exact hk') hkk hv.symm
    rw [show (weld (corners ts)).1[(weld (corners ts)).2.getD k 0]? = ptAt ts k from rfl, hpk] at g1
    cases g1
    rw [h2 d g2] at g3; cases g3
end
end

namespace Ieee
variable {F : IeeeFormat}

/-- A point with a NaN coordinate equals nothing, not even itself. -/
theorem vec_beq_nan {D : Nat} {c : Vec (Ieee F) D} {i : Fin D} (h : c i = nan) (p : Vec (Ieee F) D) : (p == c) = false ∧ (c == p) = false := by
  constructor
  · rw [Bool.eq_false_iff]; intro hb
    have := vec_beq_iff.1 hb i
    rw [h, beq_nan] at this; cases this
  · rw [Bool.eq_false_iff]; intro hb
    have := vec_beq_iff.1 hb i
    rw [h, nan_beq] at this; cases this

/-- **C130.**  Triangles with a NaN coordinate: a debug build always stops at the assertion that an opposite half-edge was found.  A release
build returns a mesh that is not valid: no half-edge but its own shares the NaN corner, and the half-edge ending there has no
opposite (asking for it reads out of range). -/
theorem C130_nan (ts : List (Vec (Ieee F) 3 × Vec (Ieee F) 3 × Vec (Ieee F) 3)) (M w : Nat) (hM : 3 * ts.length < M)
    (c : Vec (Ieee F) 3) (hc : c ∈ corners ts) (i : Fin 3) (hn : c i = nan) :
    buildMesh true M w ts = .error .assertFailed ∧
    ∃ m, buildMesh false M w ts = .ok m ∧ m.isValid false M = .ok false ∧
      (∃ h ∈ m.halfedges, m.heNextVector h = .ok c ∧ h.opp = invalidHandle M ∧ m.heOpposite h = .error .outOfRange) ∧
      ∃ h ∈ m.halfedges, m.heVector h = .ok c ∧ ∀ h' ∈ m.halfedges, h'.vertex = h.vertex → h' = h := by
  obtain ⟨k, hk, rfl⟩ := List.getElem_of_mem hc
  exact unequal_any ts M w hM k (by rw [← corners_length]; exact hk) _ (List.getElem?_eq_getElem hk)
    (fun p _ => (vec_beq_nan hn p).1) (fun p _ => (vec_beq_nan hn p).2)
end Ieee

section
variable {T : Type} [Zero T] [Add T] [Sub T] [Mul T] [Neg T] [HasSqrt T] [LT T] [DecidableLT T] [BEq (Vec T 3)]
open KdNode

theorem weld_three (a b c : Vec T 3) (hab : (a == b) = false) (hac : (a == c) = false) (hbc : (b == c) = false) :
    weld (corners [(a, b, c)]) = ([a, b, c], [0, 1, 2]) := by
  simp [weld, weldStep, corners, List.findIdx?_cons, hab, hac, hbc]

theorem ptAt_three (a b c : Vec T 3) (hab : (a == b) = false) (hac : (a == c) = false) (hbc : (b == c) = false) :
    ptAt [(a, b, c)] 0 = some a ∧ ptAt [(a, b, c)] 1 = some b ∧ ptAt [(a, b, c)] 2 = some c := by
  unfold ptAt
  rw [weld_three a b c hab hac hbc]
  exact ⟨rfl, rfl, rfl⟩

/-- Inserting into a tree with a root keeps the root. -/
theorem insert_root {w : Nat} (p q : Vec T 3) (pl pl' : List Nat) (l r : KdNode (Vec T 3) (List Nat)) (hpq : (p == q) = false) (n : BitVec w) :
    ∃ l' r', (KdTree.insert ⟨.node p pl l r, n⟩ q pl').1.root = .node p pl l' r' := by
  unfold KdTree.insert
  dsimp only
  rw [insertHelper, if_neg (by rw [hpq]; exact Bool.false_ne_true)]
  split
  · exact ⟨_, _, rfl⟩
  · exact ⟨_, _, rfl⟩

/-- The tree of three different points has the first one at the root. -/
theorem index_three (a b c : Vec T 3) (o : Nat → Nat) (w : Nat) (hab : (a == b) = false) (hac : (a == c) = false) (hbc : (b == c) = false) :
    ∃ (kd : KdTree T 3 (List Nat) w) (l r : KdNode (Vec T 3) (List Nat)),
      (List.range 3).foldlM (oppositeIndexRound (anyMesh [(a, b, c)] o)) KdTree.empty = .ok kd ∧ kd.root = .node a [0] l r := by
  obtain ⟨p0, p1, p2⟩ := ptAt_three a b c hab hac hbc
  have hr : ∀ (kd : KdTree T 3 (List Nat) w) (k : Nat) (p : Vec T 3), k < 3 → ptAt [(a, b, c)] k = some p → kd.search p = false →
      oppositeIndexRound (anyMesh [(a, b, c)] o) kd k = .ok (kd.insert p [k]).1 := by
    intro kd k p hk hp hs
    unfold oppositeIndexRound
    rw [anyMesh_he [(a, b, c)] o hk, ok_bind, anyMesh_heVector [(a, b, c)] o hk hp, ok_bind, hs]
    rfl
  let k0 : KdTree T 3 (List Nat) w := KdTree.empty
  have e1 : (k0.insert a [0]).1.root = .node a [0] .nil .nil := rfl
  have s1 : (k0.insert a [0]).1.search b = false := by
    show searchHelper b (.node a [0] .nil .nil) (0 : BitVec w) = false
    simp [searchHelper, hab]
  have s2 : ((k0.insert a [0]).1.insert b [1]).1.search c = false := by
    show searchHelper c (insertHelper b [1] (.node a [0] .nil .nil) (0 : BitVec w)).1 (0 : BitVec w) = false
    rw [insertHelper, if_neg (by rw [hab]; exact Bool.false_ne_true)]
    split
    · simp [insertHelper, searchHelper, hac, hbc]
    · simp [insertHelper, searchHelper, hac, hbc]
  obtain ⟨l1, r1, e2⟩ := insert_root (w := w) a b [0] [1] .nil .nil hab (k0.insert a [0]).1.size
  obtain ⟨l2, r2, e3⟩ := insert_root (w := w) a c [0] [2] l1 r1 hac ((k0.insert a [0]).1.insert b [1]).1.size
  refine ⟨(((k0.insert a [0]).1.insert b [1]).1.insert c [2]).1, l2, r2, ?_, ?_⟩
  · show ([0, 1, 2] : List Nat).foldlM _ _ = _
    simp only [List.foldlM_cons, List.foldlM_nil]
    rw [hr KdTree.empty 0 a (by omega) p0 rfl, ok_bind, hr _ 1 b (by omega) p1 s1, ok_bind, hr _ 2 c (by omega) p2 s2, ok_bind]
    rfl
  · rw [← e3, ← e2]
    rfl

end

namespace Ieee
variable {F : IeeeFormat}

/-- **C131 is false.**  A triangle of three different points, the last of which has an infinite coordinate: a debug build stops at the
assertion, a release build returns a mesh that is not valid. -/
theorem C131_counterexample (a b c : Vec (Ieee F) 3) (M w : Nat) (hM : 3 < M) (hab : (a == b) = false) (hac : (a == c) = false)
    (hbc : (b == c) = false) (i : Fin 3) (s : Bool) (hc : c i = inf s) :
    buildMesh true M w [(a, b, c)] = .error .assertFailed ∧
    ∃ m, buildMesh false M w [(a, b, c)] = .ok m ∧ m.isValid false M = .ok false := by
  obtain ⟨p0, p1, p2⟩ := ptAt_three a b c hab hac hbc
  have hba : (b == a) = false := by
    rw [Bool.eq_false_iff] at hab ⊢; exact fun h => hab (BEq.symm h)
  have hca : (c == a) = false := by
    rw [Bool.eq_false_iff] at hac ⊢; exact fun h => hac (BEq.symm h)
  let ts := [(a, b, c)]
  let o : Nat → Nat := fun _ => M - 1
  obtain ⟨kd, l, r, hk, hroot⟩ := index_three a b c o w hab hac hbc
  obtain ⟨kd', hk', hpay, hne⟩ := index_any ts o w
  rw [show (3 * ts.length) = 3 from rfl, hk, Except.ok.injEq] at hk'
  subst hk'
  have hne := hne (by show 0 < 3; omega)
  -- the third round
  have h2 : ∀ (dbg : Bool) (o' : Nat → Nat), oppositeSetRound dbg kd (anyMesh ts o') 2 = if dbg then .error .assertFailed else .ok (anyMesh ts o') := by
    intro dbg o'
    have hnear : kd.nearest c = .ok (a, [0]) := by
      unfold KdTree.nearest KdTree.nearestPath
      rw [hroot]
      dsimp only
      rw [nearest_stays c _ _ _ _ (fun e he => (kdDistance_big i (.inr (.inr ⟨s, hc⟩))).not_lt _)]
      rfl
    unfold oppositeSetRound
    rw [anyMesh_he ts o' (by show 2 < 3; omega), ok_bind, anyMesh_heNextVector ts o' (k := 2) (by show 2 < 3; omega) p0, ok_bind,
      anyMesh_heVector ts o' (by show 2 < 3; omega) p2, ok_bind, hnear, ok_bind]
    dsimp only
    unfold findOpposite
    rw [anyMesh_he ts o' (by show 0 < 3; omega), ok_bind, anyMesh_heNextVector ts o' (k := 0) (by show 0 < 3; omega) p1, ok_bind, hba]
    cases dbg <;> rfl
  -- the first two leave its link alone
  have h01 : ∀ (k : Nat) (hk : k < 2) (o' : Nat → Nat), LinksOk ts o' M → o' 2 = M - 1 →
      ∃ o'', LinksOk ts o'' M ∧ o'' 2 = M - 1 ∧ oppositeSetRound false kd (anyMesh ts o') k = .ok (anyMesh ts o'') ∧
      (oppositeSetRound true kd (anyMesh ts o') k = .ok (anyMesh ts o'') ∨ oppositeSetRound true kd (anyMesh ts o') k = .error .assertFailed) := by
    intro k hk o' ho' ho2
    have hk3 : k < 3 * ts.length := by show k < 3; omega
    rcases set_round_any ts o' kd hpay hne hk3 with ⟨j, hj, hch, hr⟩ | hr
    · refine ⟨_, (ho'.update ts hj (.inl hch)).update ts hk3 (.inr hch), ?_, hr false, .inl (hr true)⟩
      have hj2 : j ≠ 2 := by
        rintro rfl
        obtain ⟨p, q, hp, hq, hpq⟩ := hch
        rw [show nextCorner 2 = 0 from rfl, p0] at hp
        cases hp
        have : k = 0 ∨ k = 1 := by omega
        rcases this with rfl | rfl
        · rw [show nextCorner 0 = 1 from rfl, p1] at hq; cases hq; rw [hab] at hpq; cases hpq
        · rw [show nextCorner 1 = 2 from rfl, p2] at hq; cases hq; rw [hac] at hpq; cases hpq
      rw [Function.update_of_ne hj2.symm, Function.update_of_ne (by omega), ho2]
    · exact ⟨o', ho', ho2, hr false, .inr (hr true)⟩
  obtain ⟨o1, l1, e1, f1, d1⟩ := h01 0 (by omega) o (fun _ _ => .inl rfl) rfl
  obtain ⟨o2, l2, e2, f2, d2⟩ := h01 1 (by omega) o1 l1 e1
  have hb : ∀ dbg, buildMesh dbg M w ts = (do
      let m1 ← oppositeSetRound dbg kd (anyMesh ts o) 0
      let m2 ← oppositeSetRound dbg kd m1 1
      oppositeSetRound dbg kd m2 2) := by
    intro dbg
    unfold buildMesh
    rw [addTriangles_eq dbg M ts hM, ok_bind, meshOf_eq]
    unfold setOppositeHalfedges
    rw [show (meshOfO (fun _ => M - 1) (weld (corners ts)).1 (weld (corners ts)).2).halfedges.length = 3 by simp [meshOfO, anyMesh_length, ts], hk, ok_bind]
    show ([0, 1, 2] : List Nat).foldlM _ _ = _
    simp only [List.foldlM_cons, List.foldlM_nil, bind_pure]
    rfl
  refine ⟨?_, anyMesh ts o2, ?_, ?_⟩
  · show buildMesh true M w ts = _
    rw [hb]
    rcases d1 with d1 | d1
    · rw [d1, ok_bind]
      rcases d2 with d2 | d2
      · rw [d2, ok_bind, h2]; rfl
      · rw [d2, error_bind]
    · rw [d1, error_bind]
  · show buildMesh false M w ts = _
    rw [hb, f1, ok_bind, f2, ok_bind, h2]; rfl
  · obtain ⟨b', hb', hb''⟩ := isValid_any ts l2
    rw [hb', hb'' ⟨2, by show 2 < 3; omega, e2⟩]

/-! ### Examples -/
section Examples

theorem q64_unequal (a b c a' b' c' : ℤ) (ha : |a| < 2 ^ 53) (hb : |b| < 2 ^ 53) (hc : |c| < 2 ^ 53) (ha' : |a'| < 2 ^ 53) (hb' : |b'| < 2 ^ 53)
    (hc' : |c'| < 2 ^ 53) (h : a ≠ a' ∨ b ≠ b' ∨ c ≠ c') : (q64 a b c ha hb hc == q64 a' b' c' ha' hb' hc') = false := by
  rw [Bool.eq_false_iff]
  intro he
  have key : ∀ i, ord (q64 a b c ha hb hc i) = ord (q64 a' b' c' ha' hb' hc' i) := fun i => (beq_iff.1 (vec_beq_iff.1 he i)).2.2
  have i0 : ((a : ℝ) : EReal) = ((a' : ℝ) : EReal) := key 0
  have i1 : ((b : ℝ) : EReal) = ((b' : ℝ) : EReal) := key 1
  have i2 : ((c : ℝ) : EReal) = ((c' : ℝ) : EReal) := key 2
  rw [EReal.coe_eq_coe_iff] at i0 i1 i2
  rcases h with h | h | h
  · exact h (by exact_mod_cast i0)
  · exact h (by exact_mod_cast i1)
  · exact h (by exact_mod_cast i2)

/-- C129 with a NaN corner, an infinite corner and two ordinary ones. -/
example : ∃ m, buildMesh false (2 ^ 32) 64 [(q64 0 0 0, (fun _ => nan), q64 1 0 0), (q64 1 0 0, (fun _ => inf true), q64 0 0 0)] = .ok m ∧
    ∃ b, m.isValid false (2 ^ 32) = .ok b := by
  obtain ⟨m, h1, _, _, h2⟩ := C129_release (T := Ieee double64)
    [(q64 0 0 0, (fun _ => nan), q64 1 0 0), (q64 1 0 0, (fun _ => inf true), q64 0 0 0)] (2 ^ 32) 64 (by norm_num)
  exact ⟨m, h1, h2⟩

example : buildMesh true (2 ^ 32) 64 [(q64 0 0 0, (fun _ => inf false), q64 1 0 0)] = buildMesh false (2 ^ 32) 64 [(q64 0 0 0, (fun _ => inf false), q64 1 0 0)] ∨
    buildMesh true (2 ^ 32) 64 [(q64 0 0 0, (fun _ => inf false), q64 1 0 0)] = .error .assertFailed :=
  C129_debug (T := Ieee double64) _ (2 ^ 32) 64 (by norm_num)

/-- C129 with an equality under which no two points are ever equal. -/
example (ts : List (Vec (Ieee double64) 3 × Vec (Ieee double64) 3 × Vec (Ieee double64) 3)) (h : 3 * ts.length < 2 ^ 32) :
    letI : BEq (Vec (Ieee double64) 3) := ⟨fun _ _ => false⟩
    ∃ m, buildMesh false (2 ^ 32) 64 ts = .ok m := by
  let : BEq (Vec (Ieee double64) 3) := ⟨fun _ _ => false⟩
  obtain ⟨m, h1, _⟩ := C129_release ts (2 ^ 32) 64 h
  exact ⟨m, h1⟩

/-- C130: two triangles of which one has a corner with a NaN coordinate. -/
example : buildMesh true (2 ^ 32) 64 [(q64 0 0 0, q64 1 0 0, q64 0 1 0), (q64 1 0 0, q64 0 0 0, ![ie64 5, nan, ie64 2])] = .error .assertFailed :=
  (C130_nan (F := double64) [(q64 0 0 0, q64 1 0 0, q64 0 1 0), (q64 1 0 0, q64 0 0 0, ![ie64 5, nan, ie64 2])] (2 ^ 32) 64 (by norm_num)
    ![ie64 5, nan, ie64 2] (by simp [corners]) 1 rfl).1

/-- C131: the third corner at infinity. -/
example : buildMesh true (2 ^ 32) 64 [(q64 0 0 0, q64 1 0 0, ![inf false, ie64 0, ie64 0])] = .error .assertFailed := by
  have hinf : ∀ a : ℤ, ∀ h : |a| < 2 ^ 53, (q64 a 0 0 h == ![inf false, ie64 0, ie64 0]) = false := by
    intro a h
    rw [Bool.eq_false_iff]
    intro he
    have h0 := (beq_iff.1 (vec_beq_iff.1 he 0)).2.2
    exact EReal.coe_ne_top (a : ℝ) h0
  exact (C131_counterexample _ _ _ (2 ^ 32) 64 (by norm_num) (q64_unequal _ _ _ _ _ _ _ _ _ _ _ _ (.inl (by norm_num)))
    (hinf 0 (by norm_num)) (hinf 1 (by norm_num)) 0 false rfl).1
end Examples
end Ieee
end Verif
