import Verif.Proofs.Distance
import Verif.Props.KdTreeMore
import Verif.Props.TolerantMesh

set_option linter.unusedSectionVars false
set_option linter.unusedSimpArgs false

/-
Property C144: k-d trees with a comparison of points that has a tolerance and so is not transitive.
-/
namespace Verif
open KdNode

namespace KdNode
variable {T : Type u} {D : Nat} {P : Type v} {w : Nat} [NeZero D] [LT T] [DecidableLT T]

/-- A search that succeeds still does so after an insertion. -/
theorem search_insert_mono [BEq (Vec T D)] (q p : Vec T D) (pl : P) (n : KdNode (Vec T D) P) (d : BitVec w)
    (h : searchHelper q n d = true) : searchHelper q (insertHelper p pl n d).1 d = true := by
  induction n generalizing d with
  | nil => simp [searchHelper] at h
  | node x y l r ihl ihr =>
    unfold insertHelper
    split
    · exact h
    · split
      · unfold searchHelper at h ⊢
        split at h
        · simp only [*, if_true, if_false, Bool.false_eq_true, not_false_eq_true]
        · split at h
          · simp only [*, if_true, if_false, Bool.false_eq_true, not_false_eq_true, ihl _ h]
          · simp only [*, if_true, if_false, Bool.false_eq_true, not_false_eq_true]
      · unfold searchHelper at h ⊢
        split at h
        · simp only [*, if_true, if_false, Bool.false_eq_true, not_false_eq_true]
        · split at h
          · simp only [*, if_true, if_false, Bool.false_eq_true, not_false_eq_true]
          · simp only [*, if_true, if_false, Bool.false_eq_true, not_false_eq_true, ihr _ h]

/-- What was just inserted is found. -/
theorem search_insert_self [BEq (Vec T D)] (hr : ∀ p : Vec T D, (p == p) = true) (p : Vec T D) (pl : P) (n : KdNode (Vec T D) P) (d : BitVec w) :
    searchHelper p (insertHelper p pl n d).1 d = true := by
  induction n generalizing d with
  | nil => simp [insertHelper, searchHelper, hr]
  | node x y l r ihl ihr =>
    unfold insertHelper
    split
    · simp only [*, if_true, if_false, Bool.false_eq_true, not_false_eq_true, searchHelper]
    · split
      · simp only [*, if_true, if_false, Bool.false_eq_true, not_false_eq_true, searchHelper]
      · simp only [*, if_true, if_false, Bool.false_eq_true, not_false_eq_true, searchHelper]

theorem search_sound [BEq (Vec T D)] (q : Vec T D) (n : KdNode (Vec T D) P) (d : BitVec w) (h : searchHelper q n d = true) :
    ∃ e ∈ entries n, (e.1 == q) = true := by
  induction n generalizing d with
  | nil => simp [searchHelper] at h
  | node x y l r ihl ihr =>
    unfold searchHelper at h
    split at h
    · exact ⟨(x, y), by simp [entries], by assumption⟩
    · split at h
      · obtain ⟨e, he, hq⟩ := ihl _ h
        exact ⟨e, by simp [entries, he], hq⟩
      · obtain ⟨e, he, hq⟩ := ihr _ h
        exact ⟨e, by simp [entries, he], hq⟩

/-- An unsuccessful search for a point passes the same nodes with exact comparison. -/
theorem search_false_exact (b e : BEq (Vec T D)) (he : ∀ p q, e.beq p q = true ↔ p = q) (hr : ∀ p, b.beq p p = true) (p : Vec T D) (pl : P)
    (n : KdNode (Vec T D) P) (d : BitVec w) (h : @searchHelper T D P w _ _ _ b p n d = false) :
    @searchHelper T D P w _ _ _ e p n d = false ∧
      @insertHelper T D P w _ _ _ b p pl n d = @insertHelper T D P w _ _ _ e p pl n d := by
  induction n generalizing d with
  | nil => exact ⟨rfl, rfl⟩
  | node x y l r ihl ihr =>
    have hb : b.beq x p = false := by
      rw [← Bool.not_eq_true]
      intro hx
      unfold searchHelper at h
      simp [hx] at h
    have hx : e.beq x p = false := by
      rw [← Bool.not_eq_true, he]
      rintro rfl
      rw [hr] at hb; cases hb
    unfold searchHelper at h
    unfold searchHelper insertHelper
    simp only [hb, hx, Bool.false_eq_true, if_false] at h ⊢
    split at h
    · obtain ⟨h1, h2⟩ := ihl _ h
      simp only [*, if_true, if_false, Bool.false_eq_true, not_false_eq_true, h1, h2, and_self]
    · obtain ⟨h1, h2⟩ := ihr _ h
      simp only [*, if_true, if_false, Bool.false_eq_true, not_false_eq_true, h1, h2, and_self]
end KdNode

section
variable {T : Type u} {D : Nat} {P : Type v} {w : Nat} [NeZero D] [LT T] [DecidableLT T]

/-- `KdTree.build` with a given comparison of points. -/
abbrev KdTree.buildWith (b : BEq (Vec T D)) (w : Nat) (h : List (Vec T D × P)) : KdTree T D P w := @KdTree.build T D P _ _ _ b w h

/-- `KdTree::search` with a given comparison of points. -/
abbrev KdTree.searchWith (b : BEq (Vec T D)) (t : KdTree T D P w) (q : Vec T D) : Bool := @KdTree.search T D P w _ _ _ b t q

/-- **C144.**  Let points be compared in any way in which each point equals itself.  Every inserted point is found, also after further
insertions. -/
theorem C144_found (b : BEq (Vec T D)) (hr : ∀ p, b.beq p p = true) (h : List (Vec T D × P)) (e : Vec T D × P) (he : e ∈ h) :
    (KdTree.buildWith b w h).searchWith b e.1 = true := by
  induction h using List.reverseRecOn with
  | nil => simp at he
  | append_singleton h x ih =>
    rw [KdTree.buildWith, @KdTree.build_snoc T D P w _ _ _ b]
    rcases List.mem_append.1 he with he | he
    · exact @search_insert_mono T D P w _ _ _ b e.1 x.1 x.2 _ 0 (ih he)
    · rw [List.mem_singleton] at he
      subst he
      exact @search_insert_self T D P w _ _ _ b hr e.1 e.2 _ 0

theorem build_entries (b : BEq (Vec T D)) (h : List (Vec T D × P)) : ∀ e ∈ entries (KdTree.buildWith b w h).root, e ∈ h := by
  induction h using List.reverseRecOn with
  | nil => intro e he; simp [KdTree.buildWith, KdTree.build, KdTree.empty, entries] at he
  | append_singleton h x ih =>
    rw [KdTree.buildWith, @KdTree.build_snoc T D P w _ _ _ b]
    intro e he
    rcases @insert_entry T D P w _ _ _ b x.1 x.2 _ 0 e he with he | rfl
    · exact List.mem_append_left _ (ih e he)
    · exact List.mem_append_right _ (by simp)

/-- **C144.**  A point is found only if an inserted point compares equal to it. -/
theorem C144_sound (b : BEq (Vec T D)) (h : List (Vec T D × P)) (q : Vec T D) (hq : (KdTree.buildWith b w h).searchWith b q = true) :
    ∃ e ∈ h, b.beq e.1 q = true := by
  obtain ⟨e, he, h1⟩ := @search_sound T D P w _ _ _ b q _ 0 hq
  exact ⟨e, build_entries b h e he, h1⟩

/-- **C144.**  The tree is the one exact comparison gives for part of the insertions, in the same order: no point is in that part twice, and
every inserted point is either in it or compares equal to a point of it.  So all that is proved about trees with exact comparison is true of
the points of that part. -/
theorem C144_part (b e : BEq (Vec T D)) (he : ∀ p q, e.beq p q = true ↔ p = q) (hr : ∀ p, b.beq p p = true) (h : List (Vec T D × P)) :
    ∃ h' : List (Vec T D × P), h'.Sublist h ∧ (h'.map Prod.fst).Nodup ∧ KdTree.buildWith b w h = KdTree.buildWith e w h' ∧
      ∀ x ∈ h, ∃ x' ∈ h', b.beq x'.1 x.1 = true := by
  have lawful : @LawfulBEq _ e := by
    refine @LawfulBEq.mk _ e (@ReflBEq.mk _ e fun {a} => (he a a).2 rfl) fun {a b} hab => (he a b).1 hab
  induction h using List.reverseRecOn with
  | nil => exact ⟨[], by simp, by simp, rfl, by simp⟩
  | append_singleton h x ih =>
    obtain ⟨h', h1, h2, h3, h4⟩ := ih
    rw [KdTree.buildWith, @KdTree.build_snoc T D P w _ _ _ b]
    cases hs : @searchHelper T D P w _ _ _ b x.1 (KdTree.buildWith b w h).root 0 with
    | true =>
      refine ⟨h', h1.trans (List.sublist_append_left _ _), h2, ?_, ?_⟩
      · rw [← h3]
        have := @insert_false T D P w _ _ _ b x.1 x.2 (KdTree.buildWith b w h).root 0 (by rw [@insert_snd T D P w _ _ _ b, hs]; rfl)
        have h5 := @insert_snd T D P w _ _ _ b x.1 x.2 (KdTree.buildWith b w h).root 0
        rw [hs] at h5
        unfold KdTree.insert
        simp only [this, h5]
        rfl
      · intro y hy
        rcases List.mem_append.1 hy with hy | hy
        · exact h4 y hy
        · rw [List.mem_singleton] at hy
          subst hy
          obtain ⟨z, hz, hzy⟩ := @search_sound T D P w _ _ _ b y.1 _ 0 hs
          rw [h3] at hz
          exact ⟨z, build_entries e h' z hz, hzy⟩
    | false =>
      obtain ⟨h5, h6⟩ := search_false_exact b e he hr x.1 x.2 _ 0 hs
      refine ⟨h' ++ [x], h1.append (List.Sublist.refl _), ?_, ?_, ?_⟩
      · rw [List.map_append, List.nodup_append]
        refine ⟨h2, by simp, ?_⟩
        intro p hp q hq hpq
        subst hpq
        rw [List.map_singleton, List.mem_singleton] at hq
        subst hq
        have := (@C01_search_iff_mem T D P w _ _ _ e lawful h' x.1).2 hp
        rw [h3] at h5
        rw [KdTree.search, h5] at this
        cases this
      · rw [KdTree.buildWith, @KdTree.build_snoc T D P w _ _ _ e]
        change _ = (@KdTree.insert T D P w _ _ _ e (KdTree.buildWith e w h') x.1 x.2).1
        rw [← h3]
        unfold KdTree.insert
        simp only [h6]
      · intro y hy
        rcases List.mem_append.1 hy with hy | hy
        · obtain ⟨z, hz, hzy⟩ := h4 y hy
          exact ⟨z, List.mem_append_left _ hz, hzy⟩
        · rw [List.mem_singleton] at hy
          subst hy
          exact ⟨y, by simp, hr _⟩

/-- **C144.**  `insert` returns whether the search for the point fails; if it does not fail nothing is changed. -/
theorem C144_insert (b : BEq (Vec T D)) (h : List (Vec T D × P)) (p : Vec T D) (pl : P) :
    (@KdTree.insert T D P w _ _ _ b (KdTree.buildWith b w h) p pl).2 = !(KdTree.buildWith b w h).searchWith b p ∧
    ((KdTree.buildWith b w h).searchWith b p = true →
      (@KdTree.insert T D P w _ _ _ b (KdTree.buildWith b w h) p pl).1 = KdTree.buildWith b w h) := by
  have h1 := @insert_snd T D P w _ _ _ b p pl (KdTree.buildWith b w h).root 0
  refine ⟨h1, fun hs => ?_⟩
  have h2 : (@insertHelper T D P w _ _ _ b p pl (KdTree.buildWith b w h).root 0).2 = false := by
    rw [h1]
    unfold KdTree.searchWith KdTree.search at hs
    rw [hs]; rfl
  unfold KdTree.insert
  simp only [@insert_false T D P w _ _ _ b p pl (KdTree.buildWith b w h).root 0 h2, h2]
  rfl
end

section
variable {D : Nat} {P : Type v} {w : Nat} [NeZero D]

theorem dist_le_of_coord {a b : Vec ℝ D} {eps : ℝ} (h0 : 0 ≤ eps) (h : ∀ i, |a i - b i| ≤ eps) : Spec.dist a b ≤ Real.sqrt D * eps := by
  unfold Spec.dist
  rw [show Real.sqrt D * eps = Real.sqrt (D * eps ^ 2) by rw [Real.sqrt_mul (by positivity), Real.sqrt_sq h0]]
  refine Real.sqrt_le_sqrt ?_
  calc ∑ i, (a i - b i) ^ 2 ≤ ∑ _i : Fin D, eps ^ 2 := Finset.sum_le_sum fun i _ => sq_le_sq' (abs_le.1 (h i)).1 (abs_le.1 (h i)).2
    _ = D * eps ^ 2 := by simp

/-- **C144.**  With real coordinates compared up to `eps`, `nearest` returns an inserted entry, and its point is nearest among all inserted
points up to `√D · eps`.  An inserted point is exactly nearest if all inserted points are more than `eps` apart in some coordinate. -/
theorem C144_nearest (eps : ℝ) (h0 : 0 ≤ eps) (h : List (Vec ℝ D × P)) (hne : h ≠ []) (q : Vec ℝ D) :
    ∃ e ∈ h, (KdTree.buildWith (nearBEq eps) w h).nearest q = .ok e ∧
      (∀ e' ∈ h, Spec.dist e.1 q ≤ Spec.dist e'.1 q + Real.sqrt D * eps) ∧
      ((∀ x ∈ h, ∀ y ∈ h, x.1 ≠ y.1 → ∃ i, eps < |x.1 i - y.1 i|) → ∀ e' ∈ h, Spec.dist e.1 q ≤ Spec.dist e'.1 q) := by
  classical
  let ex : BEq (Vec ℝ D) := instBEqOfDecidableEq
  obtain ⟨h', h1, _, h3, h4⟩ := C144_part (w := w) (nearBEq eps) ex (fun p q => beq_iff_eq) (nearBEq_refl h0) h
  rw [h3]
  have hne' : h' ≠ [] := by
    obtain ⟨x, hx⟩ := List.exists_mem_of_ne_nil h hne
    obtain ⟨x', hx', _⟩ := h4 x hx
    exact List.ne_nil_of_mem hx'
  obtain ⟨e, he, h5, h6⟩ := (C04_nearest (w := w) h' q).2 hne'
  have hmem : e ∈ h' := firstEntries_subset h' he
  refine ⟨e, h1.subset hmem, h5, ?_, ?_⟩
  · intro e' he'
    obtain ⟨x, hx, hxe⟩ := h4 e' he'
    have := dist_le_of_coord h0 (nearBEq_iff.1 hxe)
    linarith [h6 x hx, dist_triangle' x.1 e'.1 q]
  · intro hs e' he'
    obtain ⟨x, hx, hxe⟩ := h4 e' he'
    by_cases hx' : x.1 = e'.1
    · rw [← hx']; exact h6 x hx
    · obtain ⟨i, hi⟩ := hs x (h1.subset hx) e' he' hx'
      exact absurd (nearBEq_iff.1 hxe i) (not_le.2 hi)
end

/-- With a tolerance a point may be stored although a point that compares equal is in the tree already, and which points are stored depends
on the order of insertion. -/
theorem C144_counterexample :
    (∃ (h : List (Vec ℚ 2 × Unit)) (p q : Vec ℚ 2), p ≠ q ∧ tolEq.beq p q = true ∧
      (p, ()) ∈ entries (KdTree.buildWith tolEq 8 h).root ∧ (q, ()) ∈ entries (KdTree.buildWith tolEq 8 h).root) ∧
    ∃ h h' : List (Vec ℚ 2 × Unit), h.Perm h' ∧ (KdTree.buildWith tolEq 8 h).getSize ≠ (KdTree.buildWith tolEq 8 h').getSize := by
  refine ⟨⟨[(![10, 0], ()), (![21 / 2, 50], ()), (![39 / 4, 50], ())], ![21 / 2, 50], ![39 / 4, 50], by decide +kernel, by decide +kernel,
    by decide +kernel, by decide +kernel⟩,
    [(![0, 0], ()), (![1, 0], ()), (![2, 0], ())], [(![1, 0], ()), (![0, 0], ()), (![2, 0], ())], List.Perm.swap _ _ _, by decide +kernel⟩

section Examples
/-- Three points, the second of which is within the tolerance of the first. -/
noncomputable def looseHist : List (Vec ℝ 2 × Nat) := [(![0, 0], 1), (![1 / 1000, 0], 2), (![5, 5], 3)]

theorem looseHist_refl (p : Vec ℝ 2) : (nearBEq (1 / 100)).beq p p = true := nearBEq_refl (by norm_num) p

example : (KdTree.buildWith (nearBEq (1 / 100)) 64 looseHist).searchWith (nearBEq (1 / 100)) ![1 / 1000, 0] = true :=
  C144_found (w := 64) _ looseHist_refl looseHist (![1 / 1000, 0], 2) (by simp [looseHist])

example : (KdTree.buildWith (nearBEq (1 / 100)) 64 looseHist).searchWith (nearBEq (1 / 100)) ![1, 1] = false := by
  rw [← Bool.not_eq_true]
  intro hs
  obtain ⟨e, he, hq⟩ := C144_sound (w := 64) _ looseHist _ hs
  have h0 := nearBEq_iff.1 hq 0
  simp only [looseHist, List.mem_cons, List.not_mem_nil, or_false] at he
  rcases he with rfl | rfl | rfl <;> norm_num [abs_le] at h0

example (ex : BEq (Vec ℝ 2)) (hx : ∀ p q, ex.beq p q = true ↔ p = q) : ∃ h' : List (Vec ℝ 2 × Nat), h'.Sublist looseHist ∧
    (h'.map Prod.fst).Nodup ∧ KdTree.buildWith (nearBEq (1 / 100)) 64 looseHist = KdTree.buildWith ex 64 h' ∧
      ∀ x ∈ looseHist, ∃ x' ∈ h', (nearBEq (1 / 100)).beq x'.1 x.1 = true :=
  C144_part _ ex hx looseHist_refl looseHist

/-- The second insertion is refused, because its point is found. -/
example : (@KdTree.insert ℝ 2 Nat 64 _ _ _ (nearBEq (1 / 100)) (KdTree.buildWith (nearBEq (1 / 100)) 64 looseHist) ![5, 5] 7).2 = false := by
  rw [(C144_insert (w := 64) (nearBEq (1 / 100)) looseHist ![5, 5] 7).1,
    C144_found (w := 64) _ looseHist_refl looseHist (![5, 5], 3) (by simp [looseHist])]
  rfl

example : ∃ e ∈ looseHist, (KdTree.buildWith (nearBEq (1 / 100)) 64 looseHist).nearest ![1 / 1000, 0] = .ok e ∧
    (∀ e' ∈ looseHist, Spec.dist e.1 ![1 / 1000, 0] ≤ Spec.dist e'.1 ![1 / 1000, 0] + Real.sqrt (2 : Nat) * (1 / 100)) := by
  obtain ⟨e, h1, h2, h3, _⟩ := C144_nearest (w := 64) (1 / 100) (by norm_num) looseHist (by simp [looseHist]) ![1 / 1000, 0]
  exact ⟨e, h1, h2, h3⟩
end Examples
end Verif
