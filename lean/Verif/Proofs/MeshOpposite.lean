import Mathlib.Order.Fin.Basic
import Mathlib.Data.List.NodupEquivFin
import Verif.Props.MeshLines
import Verif.Props.KdTree

set_option linter.unusedSectionVars false

/-
What `set_opposite_halfedges` does to a mesh in closed form.
-/
namespace Verif
open Spec KdNode

section
variable {T : Type} [LinearOrder T] [Zero T] [Add T] [Sub T] [Mul T] [Neg T] [HasSqrt T] [StoredSound T 3]
variable [BEq (Vec T 3)] [LawfulBEq (Vec T 3)]

/-- The corners below `j` that lie at `p`. -/
def occ (cs : List (Vec T 3)) (j : Nat) (p : Vec T 3) : List Nat :=
  (List.range j).filter fun k => cs[k]? == some p

theorem occ_succ (cs : List (Vec T 3)) (j : Nat) (p : Vec T 3) :
    occ cs (j + 1) p = occ cs j p ++ if cs[j]? = some p then [j] else [] := by
  unfold occ
  rw [List.range_succ, List.filter_append]
  congr 1
  by_cases h : cs[j]? = some p <;> simp [h]

theorem mem_occ (cs : List (Vec T 3)) (j : Nat) (p : Vec T 3) (k : Nat) :
    k ∈ occ cs j p ↔ k < j ∧ cs[k]? = some p := by simp [occ]

/-- The tree after `j` rounds holds, for every point met, the list of corners at it. -/
structure IndexInv {w : Nat} (cs : List (Vec T 3)) (j : Nat) (kd : KdTree T 3 (List Nat) w) : Prop where
  inv : kd.root.Inv (0 : BitVec w)
  mem : ∀ e, e ∈ entries kd.root ↔ e.2 = occ cs j e.1 ∧ e.2 ≠ []

theorem IndexInv.apart {w : Nat} {cs : List (Vec T 3)} {j : Nat} {kd : KdTree T 3 (List Nat) w} (h : IndexInv cs j kd)
    (ha : Apart cs) : Apart ((entries kd.root).map Prod.fst) := by
  refine ha.subset fun v hv => ?_
  obtain ⟨e, he, rfl⟩ := List.mem_map.1 hv
  obtain ⟨h1, h2⟩ := (h.mem e).1 he
  rw [h1] at h2
  obtain ⟨k, hk⟩ := List.exists_mem_of_ne_nil _ h2
  exact List.mem_of_getElem? ((mem_occ _ _ _ _).1 hk).2

theorem indexInv_step {w : Nat} (cs : List (Vec T 3)) (j : Nat) (kd : KdTree T 3 (List Nat) w) (h : IndexInv cs j kd)
    (p : Vec T 3) (hp : cs[j]? = some p) (ha : Apart cs) :
    ∃ kd', (if kd.search p then kd.modifyNearest p (· ++ [j]) else .ok (kd.insert p [j]).1) = .ok kd' ∧
      IndexInv cs (j + 1) kd' := by
  have hs : kd.search p = true ↔ ∃ e ∈ entries kd.root, (e.1 == p) = true := search_iff p kd.root _ h.inv
  by_cases hsr : kd.search p = true
  · rw [if_pos hsr]
    obtain ⟨e, he, hep⟩ := hs.1 hsr
    have hep := eq_of_beq hep
    obtain ⟨kd', hmod, hinv, hmap⟩ := KdTree.write_of_stored kd h.inv (h.apart ha) e he (· ++ [j])
    rw [hep] at hmod
    · refine ⟨_, hmod, hinv, ?_⟩
      intro x
      rw [hmap, List.mem_map]
      constructor
      · rintro ⟨y, hy, rfl⟩
        obtain ⟨hy1, hy2⟩ := (h.mem y).1 hy
        by_cases hye : y.1 = e.1
        · rw [if_pos (by simp [hye])]
          refine ⟨?_, by simp⟩
          dsimp only
          rw [occ_succ, ← hy1, if_pos (by rw [hp, hye, hep])]
        · rw [if_neg (by simpa using hye)]
          refine ⟨?_, hy2⟩
          rw [occ_succ, ← hy1, if_neg, List.append_nil]
          rw [hp, ← hep]; intro hc; exact hye (Option.some.inj hc).symm
      · rintro ⟨hx1, hx2⟩
        by_cases hxe : x.1 = e.1
        · refine ⟨e, he, ?_⟩
          rw [if_pos (by simp)]
          rw [occ_succ, if_pos (by rw [hp, hxe, hep]), hxe] at hx1
          rw [((h.mem e).1 he).1, ← hx1, ← hxe]
        · refine ⟨x, (h.mem x).2 ⟨?_, hx2⟩, by rw [if_neg (by simpa using hxe)]⟩
          rw [hx1, occ_succ, if_neg, List.append_nil]
          rw [hp, ← hep]; intro hc; exact hxe (Option.some.inj hc).symm
  · rw [if_neg hsr]
    refine ⟨_, rfl, insert_inv _ _ _ _ h.inv, ?_⟩
    have hno : ∀ e ∈ entries kd.root, e.1 ≠ p := by
      intro e he hep
      exact hsr (hs.2 ⟨e, he, by simp [hep]⟩)
    have hocc : occ cs j p = [] := by
      by_contra hne
      exact hno (p, occ cs j p) ((h.mem _).2 ⟨rfl, hne⟩) rfl
    have hf : (insertHelper p [j] kd.root (0 : BitVec w)).2 = true := by
      rw [insert_snd]
      simpa [KdTree.search] using hsr
    have hperm := insert_perm p [j] kd.root (0 : BitVec w) hf
    intro x
    rw [show entries (kd.insert p [j]).1.root = entries (insertHelper p [j] kd.root (0 : BitVec w)).1 from rfl,
      hperm.mem_iff, List.mem_cons, h.mem]
    constructor
    · rintro (rfl | ⟨hx1, hx2⟩)
      · refine ⟨?_, by simp⟩
        dsimp only
        rw [occ_succ, hocc, if_pos hp, List.nil_append]
      · refine ⟨?_, hx2⟩
        rw [occ_succ, ← hx1, if_neg, List.append_nil]
        intro hc
        have : x.1 = p := by rw [hp] at hc; exact (Option.some.inj hc).symm
        rw [this, hocc] at hx1
        exact hx2 hx1
    · rintro ⟨hx1, hx2⟩
      rw [occ_succ] at hx1
      by_cases hxp : x.1 = p
      · left
        rw [hxp, hocc, if_pos hp, List.nil_append] at hx1
        exact Prod.ext hxp hx1
      · right
        rw [if_neg (by rw [hp]; intro hc; exact hxp (Option.some.inj hc).symm), List.append_nil] at hx1
        exact ⟨hx1, hx2⟩

theorem indexInv_empty {w : Nat} (cs : List (Vec T 3)) : IndexInv cs 0 (KdTree.empty : KdTree T 3 (List Nat) w) :=
  ⟨trivial, by intro e; simp [KdTree.empty, entries, occ]⟩

section
variable (ts : List (Vec T 3 × Vec T 3 × Vec T 3)) (o : Nat → Nat)

/-- The closed form of the mesh of `ts`. -/
abbrev tsMesh : HalfedgeMesh (Vec T 3) := meshOfO o (weld (corners ts)).1 (weld (corners ts)).2

theorem tsMesh_length : (weld (corners ts)).2.length = 3 * ts.length := by rw [weld_length, corners_length]

theorem tsMesh_he {k : Nat} (hk : k < 3 * ts.length) :
    vecGet (tsMesh ts o).halfedges k = .ok (heOfO o (weld (corners ts)).2 k) :=
  meshOfO_he _ _ _ (by rw [tsMesh_length]; exact hk)

theorem tsMesh_heVector {k : Nat} (hk : k < 3 * ts.length) {p : Vec T 3} (hp : (corners ts)[k]? = some p) :
    (tsMesh ts o).heVector (heOfO o (weld (corners ts)).2 k) = .ok p := by
  rw [meshOfO_heVector _ _ _ (weld_welded _) (by rw [tsMesh_length]; exact hk)]
  apply vecGet_of_getElem?
  rw [weld_get _ k (by rw [corners_length]; exact hk), ← hp, List.getElem?_eq_getElem]

theorem tsMesh_heNextVector {k : Nat} (hk : k < 3 * ts.length) {p : Vec T 3} (hp : (corners ts)[nextCorner k]? = some p) :
    (tsMesh ts o).heNextVector (heOfO o (weld (corners ts)).2 k) = .ok p := by
  rw [meshOfO_heNextVector _ _ _ (weld_welded _) (tsMesh_length ts) (by rw [tsMesh_length]; exact hk)]
  apply vecGet_of_getElem?
  rw [weld_get _ (nextCorner k) (by rw [corners_length]; exact nextCorner_lt hk), ← hp, List.getElem?_eq_getElem]

theorem corner_some {k : Nat} (hk : k < 3 * ts.length) : ∃ p, (corners ts)[k]? = some p :=
  ⟨_, List.getElem?_eq_getElem (by rw [corners_length]; exact hk)⟩

theorem index_loop (w : Nat) (hts : Apart (corners ts)) : ∃ kd : KdTree T 3 (List Nat) w,
    (List.range (3 * ts.length)).foldlM (oppositeIndexRound (tsMesh ts o)) KdTree.empty = .ok kd ∧
    IndexInv (corners ts) (3 * ts.length) kd := by
  have key : ∀ j ≤ 3 * ts.length, ∃ kd : KdTree T 3 (List Nat) w,
      (List.range j).foldlM (oppositeIndexRound (tsMesh ts o)) KdTree.empty = .ok kd ∧ IndexInv (corners ts) j kd := by
    intro j hj
    induction j with
    | zero => exact ⟨_, rfl, indexInv_empty _⟩
    | succ j ih =>
      obtain ⟨kd, h1, h2⟩ := ih (by omega)
      obtain ⟨p, hp⟩ := corner_some ts (show j < 3 * ts.length by omega)
      obtain ⟨kd', h3, h4⟩ := indexInv_step (corners ts) j kd h2 p hp hts
      refine ⟨kd', ?_, h4⟩
      rw [List.range_succ, List.foldlM_append, h1, ok_bind]
      simp only [List.foldlM_cons, List.foldlM_nil]
      unfold oppositeIndexRound
      rw [tsMesh_he ts o (by omega), ok_bind, tsMesh_heVector ts o (by omega) hp, ok_bind, h3, ok_bind]
      rfl
  exact key _ le_rfl

/-- The first corner whose directed edge is the one of corner `k`. -/
def firstSame (k : Nat) : Nat := (directedEdges ts).findIdx fun e => some e == (directedEdges ts)[k]?

theorem directedEdges_length : (directedEdges ts).length = 3 * ts.length := by
  induction ts with
  | nil => rfl
  | cons t ts ih =>
    rw [show directedEdges (t :: ts) = [(t.1, t.2.1), (t.2.1, t.2.2), (t.2.2, t.1)] ++ directedEdges ts from rfl]
    simp [ih]; omega

theorem firstSame_spec {k : Nat} (hk : k < 3 * ts.length) :
    firstSame ts k ≤ k ∧ (directedEdges ts)[firstSame ts k]? = (directedEdges ts)[k]? ∧
    ∀ i < firstSame ts k, (directedEdges ts)[i]? ≠ (directedEdges ts)[k]? := by
  have hl := directedEdges_length ts
  have hk' : k < (directedEdges ts).length := by omega
  have hle : firstSame ts k ≤ k := by
    by_contra hgt
    have := List.not_of_lt_findIdx (not_le.1 hgt)
    simp at this
  refine ⟨hle, ?_, ?_⟩
  · have hlt : firstSame ts k < (directedEdges ts).length := by omega
    have := List.findIdx_getElem (w := hlt)
    rw [List.getElem?_eq_getElem hlt]
    exact eq_of_beq this
  · intro i hi
    have hil : i < (directedEdges ts).length := by omega
    have := List.not_of_lt_findIdx hi
    rw [List.getElem?_eq_getElem hil]
    simpa using this

theorem findOpposite_eq (start : Vec T 3) (l : List Nat) (hl : ∀ j ∈ l, j < 3 * ts.length) :
    findOpposite (tsMesh ts o) start l = .ok (l.find? fun j => (corners ts)[nextCorner j]? == some start) := by
  induction l with
  | nil => rfl
  | cons j l ih =>
    obtain ⟨p, hp⟩ := corner_some ts (nextCorner_lt (hl j (by simp)))
    unfold findOpposite
    rw [tsMesh_he ts o (hl j (by simp)), ok_bind, tsMesh_heNextVector ts o (hl j (by simp)) hp, ok_bind,
      ih (fun x hx => hl x (by simp [hx])), List.find?_cons, hp]
    by_cases h : p = start
    · simp [h]
    · have : (some p == some start) = false := by simpa using h
      rw [this, if_neg (by simpa using h)]

theorem find_first {k : Nat} (hk : k < 3 * ts.length) {p q : Vec T 3} (hp : (corners ts)[k]? = some p)
    (hq : (corners ts)[nextCorner k]? = some q) :
    (occ (corners ts) (3 * ts.length) p).find? (fun j => (corners ts)[nextCorner j]? == some q) = some (firstSame ts k) := by
  obtain ⟨h1, h2, h3⟩ := firstSame_spec ts hk
  have hsame : ∀ i < 3 * ts.length, ((corners ts)[i]? = some p ∧ (corners ts)[nextCorner i]? = some q ↔
      (directedEdges ts)[i]? = (directedEdges ts)[k]?) := by
    intro i hi
    obtain ⟨p', hp'⟩ := corner_some ts hi
    obtain ⟨q', hq'⟩ := corner_some ts (nextCorner_lt hi)
    rw [directedEdges_get, directedEdges_get, hp, hq, hp', hq']
    simp
  unfold occ
  rw [List.find?_filter, List.find?_eq_some_iff_append]
  have hf := (hsame _ (lt_of_le_of_lt h1 hk)).2 h2
  refine ⟨by simp [hf.1, hf.2], List.range (firstSame ts k),
    (List.range' (firstSame ts k + 1) (3 * ts.length - (firstSame ts k + 1))), ?_, ?_⟩
  · rw [List.range_eq_range', List.range_eq_range', ← List.range'_succ]
    have := List.range'_append_1 (s := 0) (m := firstSame ts k) (n := 3 * ts.length - (firstSame ts k + 1) + 1)
    rw [Nat.zero_add, show firstSame ts k + (3 * ts.length - (firstSame ts k + 1) + 1) = 3 * ts.length by omega] at this
    exact this.symm
  · intro i hi
    have hi : i < firstSame ts k := by simpa using hi
    have := h3 i hi
    rw [ne_eq, ← hsame i (by omega)] at this
    simpa [imp_iff_not_or] using this

/-- One round of the second loop. -/
def oppStep (o : Nat → Nat) (k : Nat) : Nat → Nat :=
  Function.update (Function.update o k (firstSame ts k)) (firstSame ts k) k

theorem modify_heOfO (as : List Nat) (k v : Nat) :
    ((List.range as.length).map (heOfO o as)).modify k ({ · with opp := v })
      = (List.range as.length).map (heOfO (Function.update o k v) as) := by
  apply List.ext_getElem?
  intro i
  rw [List.getElem?_modify]
  by_cases hi : i < as.length
  · simp only [List.getElem?_map, List.getElem?_range hi, Option.map_some]
    by_cases hik : k = i
    · subst hik; simp [heOfO]
    · simp [heOfO, hik, Function.update_of_ne (Ne.symm hik)]
  · rw [List.getElem?_eq_none (by simp; omega), List.getElem?_eq_none (by simp; omega)]; simp

theorem set_round {w : Nat} (dbg : Bool) (kd : KdTree T 3 (List Nat) w) (hkd : IndexInv (corners ts) (3 * ts.length) kd)
    (hts : Apart (corners ts)) {k : Nat} (hk : k < 3 * ts.length) :
    oppositeSetRound dbg kd (tsMesh ts o) k = .ok (tsMesh ts (oppStep ts o k)) := by
  obtain ⟨p, hp⟩ := corner_some ts hk
  obtain ⟨q, hq⟩ := corner_some ts (nextCorner_lt hk)
  have hne : occ (corners ts) (3 * ts.length) p ≠ [] := List.ne_nil_of_mem ((mem_occ _ _ _ k).2 ⟨hk, hp⟩)
  have hnear : kd.nearest p = .ok (p, occ (corners ts) (3 * ts.length) p) :=
    KdTree.nearest_of_stored kd hkd.inv (hkd.apart hts) (p, occ (corners ts) (3 * ts.length) p) ((hkd.mem _).2 ⟨rfl, hne⟩)
  have hfl : firstSame ts k < 3 * ts.length := lt_of_le_of_lt (firstSame_spec ts hk).1 hk
  unfold oppositeSetRound
  rw [tsMesh_he ts o hk, ok_bind, tsMesh_heNextVector ts o hk hq, ok_bind, tsMesh_heVector ts o hk hp, ok_bind,
    hnear, ok_bind, findOpposite_eq ts o q _ (fun j hj => ((mem_occ _ _ _ j).1 hj).1), ok_bind, find_first ts hk hp hq]
  dsimp only
  rw [tsMesh_he ts o hfl, ok_bind]
  congr 1
  show HalfedgeMesh.mk _ _ _ _ = HalfedgeMesh.mk _ _ _ _
  congr 1
  show (((List.range (weld (corners ts)).2.length).map (heOfO o (weld (corners ts)).2)).modify k _).modify _ _ = _
  rw [show (heOfO o (weld (corners ts)).2 (firstSame ts k)).idx = firstSame ts k from rfl,
    show (heOfO o (weld (corners ts)).2 k).idx = k from rfl,
    modify_heOfO o _ k _, modify_heOfO _ _ _ _]
  rfl

/-- `set_opposite_halfedges` on the closed form. -/
theorem setOpposite_eq (dbg : Bool) (w : Nat) (hts : Apart (corners ts)) :
    setOppositeHalfedges dbg w (tsMesh ts o) = .ok (tsMesh ts ((List.range (3 * ts.length)).foldl (oppStep ts) o)) := by
  obtain ⟨kd, h1, h2⟩ := index_loop ts o w hts
  have hlen : (tsMesh ts o).halfedges.length = 3 * ts.length := by simp [meshOfO, tsMesh_length]
  unfold setOppositeHalfedges
  rw [hlen, h1, ok_bind]
  have key : ∀ j ≤ 3 * ts.length, (List.range j).foldlM (oppositeSetRound dbg kd) (tsMesh ts o)
      = .ok (tsMesh ts ((List.range j).foldl (oppStep ts) o)) := by
    intro j hj
    induction j with
    | zero => rfl
    | succ j ih =>
      rw [List.range_succ, List.foldlM_append, ih (by omega), ok_bind, List.foldl_append]
      simp only [List.foldlM_cons, List.foldlM_nil, List.foldl_cons, List.foldl_nil]
      rw [set_round ts _ dbg kd h2 hts (by omega), ok_bind]
      rfl
  exact key _ le_rfl

/-- The opposite links that `set_opposite_halfedges` computes. -/
def oppFinal : Nat → Nat := (List.range (3 * ts.length)).foldl (oppStep ts) o

/-- The link of `k` is the first corner with the same directed edge, except that the first one is linked to the last. -/
theorem oppFinal_spec {k : Nat} (hk : k < 3 * ts.length) :
    (firstSame ts k ≠ k → oppFinal ts o k = firstSame ts k) ∧
    (firstSame ts k = k → oppFinal ts o k < 3 * ts.length ∧
      (directedEdges ts)[oppFinal ts o k]? = (directedEdges ts)[k]? ∧
      ∀ i < 3 * ts.length, oppFinal ts o k < i → (directedEdges ts)[i]? ≠ (directedEdges ts)[k]?) := by
  have hidem : ∀ i < 3 * ts.length, firstSame ts (firstSame ts i) = firstSame ts i := by
    intro i hi
    obtain ⟨h1, h2, h3⟩ := firstSame_spec ts hi
    obtain ⟨g1, g2, g3⟩ := firstSame_spec ts (lt_of_le_of_lt h1 hi)
    by_contra hne
    exact h3 _ (lt_of_le_of_ne g1 hne) (g2.trans h2)
  have key : ∀ j ≤ 3 * ts.length, ∀ k < j,
      (firstSame ts k ≠ k → (List.range j).foldl (oppStep ts) o k = firstSame ts k) ∧
      (firstSame ts k = k → (List.range j).foldl (oppStep ts) o k < j ∧
        (directedEdges ts)[(List.range j).foldl (oppStep ts) o k]? = (directedEdges ts)[k]? ∧
        ∀ i < j, (List.range j).foldl (oppStep ts) o k < i → (directedEdges ts)[i]? ≠ (directedEdges ts)[k]?) := by
    intro j hj
    induction j with
    | zero => intro k hk; omega
    | succ j ih =>
      have ih := ih (by omega)
      have hjl : j < 3 * ts.length := by omega
      obtain ⟨f1, f2, f3⟩ := firstSame_spec ts hjl
      intro k hk
      rw [List.range_succ, List.foldl_append, List.foldl_cons, List.foldl_nil]
      generalize (List.range j).foldl (oppStep ts) o = oj at ih
      unfold oppStep
      constructor
      · intro hne
        have hkf : k ≠ firstSame ts j := by
          rintro rfl
          exact hne (hidem j hjl)
        rw [Function.update_of_ne hkf]
        by_cases hkj : k = j
        · subst hkj; rw [Function.update_self]
        · rw [Function.update_of_ne hkj]
          exact (ih k (by omega)).1 hne
      · intro he
        by_cases hkf : k = firstSame ts j
        · rw [hkf, Function.update_self]
          refine ⟨by omega, f2.symm, ?_⟩
          intro i hi hji; omega
        · have hkj : k ≠ j := by rintro rfl; exact hkf he.symm
          rw [Function.update_of_ne hkf, Function.update_of_ne hkj]
          obtain ⟨i1, i2, i3⟩ := (ih k (by omega)).2 he
          refine ⟨by omega, i2, ?_⟩
          intro i hi hlt
          by_cases hij : i = j
          · subst hij
            intro heq
            -- then the first corner with this edge would be `k`
            apply hkf
            obtain ⟨k1, k2, k3⟩ := firstSame_spec ts (show k < 3 * ts.length by omega)
            rcases Nat.lt_trichotomy k (firstSame ts i) with h | h | h
            · exact absurd heq.symm (f3 k h)
            · exact h
            · exact absurd (f2.trans heq) (k3 _ (by rw [he]; exact h))
          · exact i3 i (by omega) hlt
  exact key _ le_rfl k hk

theorem oppFinal_lt {k : Nat} (hk : k < 3 * ts.length) : oppFinal ts o k < 3 * ts.length := by
  obtain ⟨h1, h2⟩ := oppFinal_spec ts o hk
  by_cases h : firstSame ts k = k
  · exact (h2 h).1
  · rw [h1 h]; exact lt_of_le_of_lt (firstSame_spec ts hk).1 hk

theorem oppFinal_same {k : Nat} (hk : k < 3 * ts.length) :
    (directedEdges ts)[oppFinal ts o k]? = (directedEdges ts)[k]? := by
  obtain ⟨h1, h2⟩ := oppFinal_spec ts o hk
  by_cases h : firstSame ts k = k
  · exact (h2 h).2.1
  · rw [h1 h]; exact (firstSame_spec ts hk).2.1

/-- The links are mutual exactly when no directed edge is used three times. -/
theorem oppFinal_involutive_iff :
    (∀ k < 3 * ts.length, oppFinal ts o (oppFinal ts o k) = k) ↔
    ∀ a b c, a < b → b < c → c < 3 * ts.length →
      ¬ ((directedEdges ts)[a]? = (directedEdges ts)[b]? ∧ (directedEdges ts)[b]? = (directedEdges ts)[c]?) := by
  constructor
  · intro h a b c hab hbc hc ⟨e1, e2⟩
    have hb : b < 3 * ts.length := by omega
    obtain ⟨f1, f2, f3⟩ := firstSame_spec ts hb
    have hfa : firstSame ts b ≠ b := by
      intro he
      exact f3 a (by rw [he]; exact hab) e1
    have hob := (oppFinal_spec ts o hb).1 hfa
    have hfl : firstSame ts b < 3 * ts.length := by omega
    have hid : firstSame ts (firstSame ts b) = firstSame ts b := by
      obtain ⟨g1, g2, _⟩ := firstSame_spec ts hfl
      by_contra hne
      exact f3 _ (lt_of_le_of_ne g1 hne) (g2.trans f2)
    obtain ⟨_, _, k3⟩ := (oppFinal_spec ts o hfl).2 hid
    have := h b hb
    rw [hob] at this
    rw [this] at k3
    exact k3 c hc hbc (e2.symm.trans f2.symm)
  · intro h k hk
    obtain ⟨h1, h2⟩ := oppFinal_spec ts o hk
    obtain ⟨f1, f2, f3⟩ := firstSame_spec ts hk
    by_cases he : firstSame ts k = k
    · obtain ⟨l1, l2, l3⟩ := h2 he
      by_cases hkl : oppFinal ts o k = k
      · rw [hkl, hkl]
      · -- the last corner's first is `k`
        set l := oppFinal ts o k with hl
        obtain ⟨g1, g2, g3⟩ := firstSame_spec ts l1
        have hfl : firstSame ts l = k := by
          rcases Nat.lt_trichotomy k (firstSame ts l) with hlt | heq | hgt
          · exact absurd l2.symm (g3 k hlt)
          · exact heq.symm
          · exact absurd (g2.trans l2) (f3 _ (by rw [he]; exact hgt))
        rw [(oppFinal_spec ts o l1).1 (by rw [hfl]; exact Ne.symm hkl), hfl]
    · rw [h1 he]
      have hfl : firstSame ts k < 3 * ts.length := by omega
      have hid : firstSame ts (firstSame ts k) = firstSame ts k := by
        obtain ⟨g1, g2, _⟩ := firstSame_spec ts hfl
        by_contra hne
        exact f3 _ (lt_of_le_of_ne g1 hne) (g2.trans f2)
      obtain ⟨l1, l2, l3⟩ := (oppFinal_spec ts o hfl).2 hid
      set l := oppFinal ts o (firstSame ts k) with hl
      rcases Nat.lt_trichotomy l k with hlt | heq | hgt
      · exact absurd f2.symm (l3 k hk hlt)
      · exact heq
      · exact absurd ⟨f2, (l2.trans f2).symm⟩ (h _ k l (by omega) hgt l1)

theorem count_le_two_iff :
    (∀ e, (directedEdges ts).count e ≤ 2) ↔
    ∀ a b c, a < b → b < c → c < 3 * ts.length →
      ¬ ((directedEdges ts)[a]? = (directedEdges ts)[b]? ∧ (directedEdges ts)[b]? = (directedEdges ts)[c]?) := by
  have hl := directedEdges_length ts
  generalize directedEdges ts = l at hl ⊢
  constructor
  · intro h a b c hab hbc hc ⟨e1, e2⟩
    have hc' : c < l.length := by omega
    have := h l[c]
    apply absurd this
    rw [not_le]
    show 3 ≤ _
    rw [← List.replicate_sublist_iff, List.sublist_iff_exists_orderEmbedding_getElem?_eq]
    have hmono : StrictMono (fun i => if i = 0 then a else if i = 1 then b else if i = 2 then c else l.length + i) := by
      intro i j hij
      dsimp only
      split <;> split <;> (try split) <;> (try split) <;> (try split) <;> (try split) <;> omega
    refine ⟨OrderEmbedding.ofStrictMono _ hmono, ?_⟩
    intro i
    change _ = l[(if i = 0 then a else if i = 1 then b else if i = 2 then c else l.length + i)]?
    rw [List.getElem?_replicate]
    by_cases h0 : i = 0
    · subst h0; simp [e1, e2, List.getElem?_eq_getElem hc']
    · by_cases h1 : i = 1
      · subst h1; simp [e2, List.getElem?_eq_getElem hc']
      · by_cases h2 : i = 2
        · subst h2; simp [List.getElem?_eq_getElem hc']
        · rw [if_neg (by omega), if_neg h0, if_neg h1, if_neg h2, List.getElem?_eq_none (by omega)]
  · intro h e
    by_contra hgt
    have hgt : 3 ≤ l.count e := by omega
    rw [← List.replicate_sublist_iff, List.sublist_iff_exists_orderEmbedding_getElem?_eq] at hgt
    obtain ⟨f, hf⟩ := hgt
    have h0 := hf 0
    have h1 := hf 1
    have h2 := hf 2
    simp only [List.getElem?_replicate] at h0 h1 h2
    norm_num at h0 h1 h2
    have hlt : f 2 < l.length := (List.getElem?_eq_some_iff.1 h2.symm).1
    exact h (f 0) (f 1) (f 2) (f.strictMono (by omega)) (f.strictMono (by omega)) (by omega)
      ⟨h0.symm.trans h1, h1.symm.trans h2⟩
end
end
end Verif
