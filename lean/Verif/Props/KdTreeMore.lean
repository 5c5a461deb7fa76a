import Verif.Props.KdTree

set_option linter.unusedSectionVars false

/-
C86, C87: moved-from trees, and the height of the tree; and a limit of C01.
-/
namespace Verif
open KdNode

variable {T : Type u} {D : Nat} {P : Type v} {w : Nat}

/-! ### C86: moving -/
section
variable [NeZero D] [LT T] [DecidableLT T] [BEq (Vec T D)]

/-- **C86**, what holds: the target of a move is the tree that was moved; the source finds nothing, and new insertions into it give the
contents of a fresh tree. Missing: its size, see `C86_counterexample`. -/
theorem C86_move_partial [PartialEquivBEq (Vec T D)] [LtCongr T D] (t : KdTree T D P w) (h : List (Vec T D × P)) (q : Vec T D) :
    t.move.1 = t ∧ t.move.2.search q = false ∧
    ((h.foldl (fun t e => (t.insert e.1 e.2).1) t.move.2).search q = true ↔ ∃ e ∈ h, (e.1 == q) = true) := by
  refine ⟨rfl, rfl, ?_⟩
  rw [← C01_search_iff_inserted (w := w)]
  have : ∀ (h : List (Vec T D × P)) (a b : KdTree T D P w), a.root = b.root →
      (h.foldl (fun t e => (t.insert e.1 e.2).1) a).root = (h.foldl (fun t e => (t.insert e.1 e.2).1) b).root := by
    intro h
    induction h with
    | nil => exact fun _ _ e => e
    | cons e h ih =>
      intro a b hab
      refine ih _ _ ?_
      simp only [KdTree.insert, hab]
  rw [KdTree.search, KdTree.search, this h t.move.2 KdTree.empty rfl]
  rfl

/-- **C86**, the size of the source: what was moved away keeps being counted. -/
theorem C86_size (t : KdTree T D P w) (h : List (Vec T D × P)) :
    (h.foldl (fun t e => (t.insert e.1 e.2).1) t.move.2).getSize = t.getSize + (KdTree.build w h).getSize := by
  have : ∀ (h : List (Vec T D × P)) (a b : KdTree T D P w) (k : BitVec w), a.root = b.root → a.size = k + b.size →
      (h.foldl (fun t e => (t.insert e.1 e.2).1) a).size = k + (h.foldl (fun t e => (t.insert e.1 e.2).1) b).size := by
    intro h
    induction h with
    | nil => exact fun _ _ _ _ e => e
    | cons e h ih =>
      intro a b k hab hs
      refine ih _ _ k (by simp only [KdTree.insert, hab]) ?_
      simp only [KdTree.insert, hab]
      split
      · rw [hs, BitVec.add_assoc]
      · exact hs
  refine this h t.move.2 KdTree.empty t.size rfl ?_
  simp [KdTree.move, KdTree.empty]
end

/-- **C86** is false: after the move the source is neither `empty()` nor of size 0, although it holds nothing: `nearest` throws. -/
theorem C86_counterexample : ∃ t : KdTree ℝ 1 Unit 8,
    t = ((KdTree.empty : KdTree ℝ 1 Unit 8).insert (fun _ => 0) ()).1 ∧ t.move.2.isEmpty = false ∧ t.move.2.getSize = 1 ∧
      ∀ q, t.move.2.nearest q = .error .exception := by
  classical
  exact ⟨_, rfl, by decide, by decide, fun q => rfl⟩

/-! ### C87: the height -/

/-- The number of nodes on the longest path; searching, inserting and destroying nest that many calls. -/
def KdNode.height {V : Type u} : KdNode V P → Nat
  | nil => 0
  | node _ _ l r => max (height l) (height r) + 1

section
variable [NeZero D] [LT T] [DecidableLT T] [BEq (Vec T D)]

theorem height_le_entries {V : Type u} : ∀ n : KdNode V P, n.height ≤ (entries n).length
  | .nil => le_rfl
  | .node _ _ l r => by
    have h1 := height_le_entries l
    have h2 := height_le_entries r
    simp only [KdNode.height, entries, List.length_cons, List.length_append]
    omega

/-- An insertion makes the tree at most one higher. -/
theorem height_insert (p : Vec T D) (pl : P) : ∀ (n : KdNode (Vec T D) P) (d : BitVec w),
    n.height ≤ (insertHelper p pl n d).1.height ∧ (insertHelper p pl n d).1.height ≤ n.height + 1
  | .nil, _ => by simp [insertHelper, KdNode.height]
  | .node q _ l r, d => by
    have h1 := height_insert p pl l (d + 1)
    have h2 := height_insert p pl r (d + 1)
    rw [insertHelper]
    split
    · exact ⟨le_rfl, Nat.le_succ _⟩
    · split <;> simp only [KdNode.height] <;> omega

/-- A right spine with the given entries. -/
def spine : List (Vec T D × P) → KdNode (Vec T D) P
  | [] => .nil
  | e :: l => .node e.1 e.2 .nil (spine l)

theorem spine_insert (e : Vec T D × P) : ∀ (l : List (Vec T D × P)) (d : BitVec w), (∀ x ∈ l, Spec.Increasing x.1 e.1) →
    insertHelper e.1 e.2 (spine l) d = (spine (l ++ [e]), true) := by
  intro l
  induction l with
  | nil => intro d _; rfl
  | cons a l ih =>
    intro d h
    obtain ⟨h1, h2⟩ := h a (by simp)
    show insertHelper e.1 e.2 (.node a.1 a.2 .nil (spine l)) d = _
    rw [insertHelper, if_neg (by simp [h1]), if_neg (h2 _), ih (d + 1) fun x hx => h x (by simp [hx])]
    rfl

/-- **C87** The height is at most the number of stored points, and points inserted in increasing order (no coordinate ever decreases) give a
tree that is that high: a list. -/
theorem C87_height [PartialEquivBEq (Vec T D)] [LtCongr T D] (h : List (Vec T D × P)) :
    (KdTree.build w h).root.height ≤ (Spec.firstEntries h).length ∧
    ((h.map Prod.fst).Pairwise Spec.Increasing → (KdTree.build w h).root.height = h.length) := by
  constructor
  · rw [← (KdTree.build_refines (w := w) h).2.1.length_eq]
    exact height_le_entries _
  · intro hp
    have hs : ∀ h : List (Vec T D × P), (h.map Prod.fst).Pairwise Spec.Increasing → (KdTree.build w h).root = spine h := by
      intro h
      induction h using List.reverseRecOn with
      | nil => intro _; rfl
      | append_singleton h e ih =>
        intro hp
        rw [List.map_append, List.pairwise_append] at hp
        rw [KdTree.build_snoc]
        simp only [KdTree.insert]
        rw [ih hp.1, spine_insert e h 0 fun x hx => hp.2.2 x.1 (List.mem_map_of_mem hx) e.1 (by simp)]
    rw [hs h hp]
    have hh : ∀ h : List (Vec T D × P), (spine h).height = h.length := by
      intro h
      induction h with
      | nil => rfl
      | cons e h ih => simp [spine, KdNode.height, ih]
    exact hh h
end

/-! ### C01 needs an equivalence -/

/-- Points that agree up to 1 in every coordinate are equal. -/
@[instance_reducible] def tolEq : BEq (Vec ℚ 2) := ⟨fun a b => decide (∀ i, |a i - b i| ≤ 1)⟩

/-- C01 for an equality up to a tolerance is false: a point is stored that is equal to the query, and it is not found. -/
theorem C01_tolerance_counterexample : ∃ (h : List (Vec ℚ 2 × Unit)) (q : Vec ℚ 2),
    (∃ e ∈ h, tolEq.beq e.1 q = true) ∧ @KdTree.search ℚ 2 Unit 8 _ _ _ tolEq (@KdTree.build ℚ 2 Unit _ _ _ tolEq 8 h) q = false := by
  refine ⟨[(![10, 0], ()), (![21 / 2, 50], ())], ![39 / 4, 50], ⟨(![21 / 2, 50], ()), by simp, ?_⟩, ?_⟩
  · decide +kernel
  · decide +kernel

section Examples
/-- Four points on the diagonal make a list. -/
example : (KdTree.build 8 ([0, 1, 2, 3].map fun i : Int => ((fun _ => i : Vec Int 2), ()))).root.height = 4 :=
  (C87_height (w := 8) _).2 (by simp [Spec.Increasing]; decide)

/-- The same points in another order do not. -/
example : (KdTree.build 8 ([2, 1, 0, 3].map fun i : Int => ((fun _ => i : Vec Int 2), ()))).root.height = 3 := by decide

example : ((KdTree.build 8 exHist).move.2).search ![1, 2] = false := (C86_move_partial (KdTree.build 8 exHist) [] _).2.1
example : ((KdTree.build 8 exHist).move.2).getSize = 3 := by decide
example : ((((KdTree.build 8 exHist).move.2).insert ![7, 7] "z").1).getSize = 4 := by
  have := C86_size (KdTree.build 8 exHist) [(![7, 7], "z")]
  rw [show (KdTree.build 8 exHist).getSize = 3 by decide] at this
  simpa using this.trans (by decide)
end Examples
end Verif
