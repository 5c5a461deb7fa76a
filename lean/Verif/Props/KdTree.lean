import Verif.Proofs.KdTree
import Verif.Proofs.Real
import Verif.Spec.Euclid
import Mathlib.Data.List.Dedup
import Mathlib.Data.Fin.VecNotation
import Mathlib.Data.Fintype.Pi

set_option linter.unusedSectionVars false

/-
Properties C01–C05.
-/
namespace Verif
open KdNode

variable {T : Type u} {D : Nat} {P : Type v} {w : Nat}

section
variable [NeZero D] [LT T] [DecidableLT T] [BEq (Vec T D)]

/-- The tree after the insertions `h` (oldest first) into an empty tree. -/
def KdTree.build (w : Nat) (h : List (Vec T D × P)) : KdTree T D P w :=
  h.foldl (fun t e => (t.insert e.1 e.2).1) KdTree.empty

theorem KdTree.build_snoc (h : List (Vec T D × P)) (e : Vec T D × P) :
    KdTree.build w (h ++ [e]) = ((KdTree.build w h).insert e.1 e.2).1 := by simp [KdTree.build]

theorem Spec.firstEntries_snoc (h : List (Vec T D × P)) (e : Vec T D × P) :
    Spec.firstEntries (h ++ [e]) =
      if (Spec.firstEntries h).any (fun x => x.1 == e.1) then Spec.firstEntries h else Spec.firstEntries h ++ [e] := by
  unfold Spec.firstEntries; rw [List.foldl_append]; rfl

/-- Refinement: invariant, entries (up to order) and size counter of the tree after any history. -/
theorem KdTree.build_refines [PartialEquivBEq (Vec T D)] [LtCongr T D] (h : List (Vec T D × P)) :
    (KdTree.build w h).root.Inv (0 : BitVec w) ∧
    (entries (KdTree.build w h).root).Perm (Spec.firstEntries h) ∧
    (KdTree.build w h).size = BitVec.ofNat w (Spec.firstEntries h).length := by
  induction h using List.reverseRecOn with
  | nil => simp [KdTree.build, KdTree.empty, Spec.firstEntries, KdNode.Inv, entries]
  | append_singleton h e ih =>
    obtain ⟨i1, i2, i3⟩ := ih
    rw [KdTree.build_snoc, Spec.firstEntries_snoc]
    simp only [KdTree.insert]
    refine ⟨insert_inv _ _ _ _ i1, ?_⟩
    have hs := search_iff e.1 _ _ i1
    have hany : (Spec.firstEntries h).any (fun x => x.1 == e.1) = searchHelper e.1 (KdTree.build w h).root (0 : BitVec w) := by
      rw [Bool.eq_iff_iff, hs]
      simp [List.any_eq_true, i2.mem_iff]
    rw [hany, insert_snd]
    cases hc : searchHelper e.1 (KdTree.build w h).root (0 : BitVec w) with
    | true =>
      have hf : (insertHelper e.1 e.2 (KdTree.build w h).root (0 : BitVec w)).2 = false := by rw [insert_snd, hc]; rfl
      simp only [if_true, Bool.not_true, Bool.false_eq_true, if_false]
      rw [insert_false _ _ _ _ hf]
      exact ⟨i2, i3⟩
    | false =>
      have hf : (insertHelper e.1 e.2 (KdTree.build w h).root (0 : BitVec w)).2 = true := by rw [insert_snd, hc]; rfl
      simp only [Bool.not_false, Bool.false_eq_true, if_false, if_true]
      refine ⟨?_, ?_⟩
      · refine (insert_perm _ _ _ _ hf).trans ?_
        exact (i2.cons _).trans (List.perm_append_singleton _ _).symm
      · rw [i3, List.length_append, List.length_singleton]
        exact (BitVec.ofNat_add ..).symm

theorem Spec.mem_firstEntries_key [PartialEquivBEq (Vec T D)] (h : List (Vec T D × P)) (q : Vec T D) :
    (∃ e ∈ Spec.firstEntries h, (e.1 == q) = true) ↔ ∃ e ∈ h, (e.1 == q) = true := by
  induction h using List.reverseRecOn with
  | nil => simp [Spec.firstEntries]
  | append_singleton h e ih =>
    rw [Spec.firstEntries_snoc]
    split
    · rename_i hc
      rw [ih]
      simp only [List.mem_append, List.mem_singleton]
      constructor
      · rintro ⟨x, hx, hq⟩; exact ⟨x, .inl hx, hq⟩
      · rintro ⟨x, hx | rfl, hq⟩
        · exact ⟨x, hx, hq⟩
        · rw [← ih]
          obtain ⟨y, hy, hyx⟩ := List.any_eq_true.1 hc
          exact ⟨y, hy, BEq.trans hyx hq⟩
    · simp only [List.mem_append, List.mem_singleton, or_and_right, exists_or, ih]

/-- **C01** `search(q)` is true exactly when an equal point was inserted: every history, dimension, size-type width
and coordinate type; `==` any symmetric and transitive relation whose equal vectors compare alike.  It need not be reflexive, so IEEE equality with NaN is
included (C116). -/
theorem C01_search_iff_inserted [PartialEquivBEq (Vec T D)] [LtCongr T D] (h : List (Vec T D × P)) (q : Vec T D) :
    (KdTree.build w h).search q = true ↔ ∃ e ∈ h, (e.1 == q) = true := by
  obtain ⟨i1, i2, _⟩ := KdTree.build_refines (w := w) h
  rw [KdTree.search, search_iff _ _ _ i1, ← Spec.mem_firstEntries_key h]
  simp [i2.mem_iff]

/-- **C01** for exact equality. -/
theorem C01_search_iff_mem [LawfulBEq (Vec T D)] (h : List (Vec T D × P)) (q : Vec T D) :
    (KdTree.build w h).search q = true ↔ q ∈ h.map Prod.fst := by
  rw [C01_search_iff_inserted]; simp

/-- **C02** `insert` returns true exactly when no equal point was inserted before; a refused insert leaves the tree
unchanged, a successful one adds exactly the given entry. -/
theorem C02_insert [PartialEquivBEq (Vec T D)] [LtCongr T D] (h : List (Vec T D × P)) (p : Vec T D) (pl : P) :
    (((KdTree.build w h).insert p pl).2 = true ↔ ¬ ∃ e ∈ h, (e.1 == p) = true) ∧
    (((KdTree.build w h).insert p pl).2 = false → ((KdTree.build w h).insert p pl).1 = KdTree.build w h) ∧
    (((KdTree.build w h).insert p pl).2 = true →
      (entries ((KdTree.build w h).insert p pl).1.root).Perm ((p, pl) :: entries (KdTree.build w h).root)) := by
  refine ⟨?_, ?_, ?_⟩
  · rw [← C01_search_iff_inserted (w := w)]
    simp [KdTree.insert, insert_snd, KdTree.search]
  · intro hf
    simp only [KdTree.insert] at hf ⊢
    rw [insert_false _ _ _ _ hf, hf]; rfl
  · exact fun ht => insert_perm _ _ _ _ ht

/-- **C03** the size counter is the number of different points modulo `2^w`. -/
theorem C03_size_mod [PartialEquivBEq (Vec T D)] [LtCongr T D] (h : List (Vec T D × P)) :
    (KdTree.build w h).getSize.toNat = (Spec.firstEntries h).length % 2 ^ w := by
  rw [KdTree.getSize, (KdTree.build_refines h).2.2, BitVec.toNat_ofNat]

theorem Spec.firstEntries_length [LawfulBEq (Vec T D)] [DecidableEq (Vec T D)] (h : List (Vec T D × P)) :
    (Spec.firstEntries h).length = (h.map Prod.fst).dedup.length := by
  have hk : ∀ h : List (Vec T D × P), ((Spec.firstEntries h).map Prod.fst).Nodup ∧
      ∀ x, x ∈ (Spec.firstEntries h).map Prod.fst ↔ x ∈ h.map Prod.fst := by
    intro h
    induction h using List.reverseRecOn with
    | nil => simp [Spec.firstEntries]
    | append_singleton h e ih =>
      obtain ⟨i1, i2⟩ := ih
      rw [Spec.firstEntries_snoc]
      split
      · rename_i hc
        refine ⟨i1, fun x => ?_⟩
        rw [i2]
        simp only [List.any_eq_true, beq_iff_eq] at hc
        obtain ⟨y, hy, hye⟩ := hc
        have : e.1 ∈ h.map Prod.fst := by rw [← i2, ← hye]; exact List.mem_map_of_mem hy
        simp only [List.map_append, List.mem_append, List.map_cons, List.map_nil, List.mem_singleton]
        exact ⟨.inl, fun hx => hx.elim id (fun hx => hx ▸ this)⟩
      · rename_i hc
        refine ⟨?_, fun x => ?_⟩
        · rw [List.map_append, List.nodup_append]
          refine ⟨i1, by simp, ?_⟩
          intro a ha b hb hab
          simp only [List.map_cons, List.map_nil, List.mem_singleton] at hb
          subst hb; subst hab
          obtain ⟨y, hy, hye⟩ := List.mem_map.1 ha
          exact hc (List.any_eq_true.2 ⟨y, hy, by simp [hye]⟩)
        · simp only [List.map_append, List.mem_append, i2]
  obtain ⟨h1, h2⟩ := hk h
  rw [← List.length_map (f := Prod.fst)]
  apply List.Perm.length_eq
  rw [List.perm_ext_iff_of_nodup h1 (List.nodup_dedup _)]
  intro a; rw [h2, List.mem_dedup]

/-- **C03** while the number of different points fits the size type, `size()` is that number and `empty()` is true
exactly for the empty history. -/
theorem C03_size_exact [LawfulBEq (Vec T D)] [DecidableEq (Vec T D)] (h : List (Vec T D × P))
    (hfit : (h.map Prod.fst).dedup.length < 2 ^ w) :
    (KdTree.build w h).getSize.toNat = (h.map Prod.fst).dedup.length ∧
    ((KdTree.build w h).isEmpty = true ↔ h = []) := by
  have h1 : (KdTree.build w h).getSize.toNat = (h.map Prod.fst).dedup.length := by
    rw [C03_size_mod, Spec.firstEntries_length, Nat.mod_eq_of_lt hfit]
  refine ⟨h1, ?_⟩
  have : (KdTree.build w h).isEmpty = true ↔ (KdTree.build w h).getSize.toNat = 0 := by
    simp only [KdTree.isEmpty, KdTree.getSize, beq_iff_eq]
    constructor
    · intro h; rw [h]; simp
    · intro h; exact BitVec.eq_of_toNat_eq (by simpa using h)
  rw [this, h1, List.length_eq_zero_iff, List.dedup_eq_nil]
  simp

/-- **C03**, limit: when the number of different points reaches `2^w` the counter is back at zero and `empty()` is true
although points are stored. -/
theorem C03_size_wraps [LawfulBEq (Vec T D)] [DecidableEq (Vec T D)] (h : List (Vec T D × P))
    (hfull : (h.map Prod.fst).dedup.length = 2 ^ w) :
    (KdTree.build w h).isEmpty = true := by
  simp only [KdTree.isEmpty, beq_iff_eq]
  rw [(KdTree.build_refines h).2.2, Spec.firstEntries_length, hfull]
  exact BitVec.eq_of_toNat_eq (by simp)
end

/-! ### nearest (real coordinates) -/
section Generic
variable [NeZero D] [LinearOrder T] [Zero T] [Add T] [Sub T] [Mul T] [Neg T] [HasSqrt T] [NearestSound T D] [BEq (Vec T D)]

/-- The trees a client can produce: by inserting and by writing through the payload reference of `nearest`. -/
inductive KdTree.Reachable : KdTree T D P w → Prop
  | empty : Reachable KdTree.empty
  | insert (t : KdTree T D P w) (p : Vec T D) (pl : P) : Reachable t → NearestSound.dom p → Reachable (t.insert p pl).1
  | write (t t' : KdTree T D P w) (q : Vec T D) (f : P → P) : Reachable t → t.modifyNearest q f = .ok t' → Reachable t'

theorem KdTree.Reachable.inv {t : KdTree T D P w} (h : t.Reachable) : t.root.Inv (0 : BitVec w) := by
  induction h with
  | empty => exact trivial
  | insert t p pl _ _ ih => exact insert_inv _ _ _ _ ih
  | write t t' q f _ hm ih =>
    unfold KdTree.modifyNearest at hm
    split at hm
    · simp at hm
    · simp only [Except.ok.injEq] at hm; subst hm; exact modify_inv _ _ _ _ ih

theorem KdTree.Reachable.entries_dom {t : KdTree T D P w} (h : t.Reachable) : ∀ e ∈ entries t.root, NearestSound.dom e.1 := by
  induction h with
  | empty => simp [KdTree.empty, entries]
  | insert t p pl _ hp ih =>
    intro e he
    rcases insert_mem _ _ _ _ _ he with rfl | h
    · exact hp
    · exact ih e h
  | write t t' q f _ hm ih =>
    unfold KdTree.modifyNearest at hm
    split at hm
    · simp at hm
    · simp only [Except.ok.injEq] at hm
      subst hm
      intro e he
      have hk : e.1 ∈ (entries (t.root.modifyAt f _)).map Prod.fst := List.mem_map_of_mem he
      rw [modify_keys] at hk
      obtain ⟨e', he', hee⟩ := List.mem_map.1 hk
      rw [← hee]; exact ih e' he'

theorem KdTree.build_reachable (h : List (Vec T D × P)) (hd : ∀ e ∈ h, NearestSound.dom e.1 := by intros; trivial) : (KdTree.build w h).Reachable := by
  induction h using List.reverseRecOn with
  | nil => exact .empty
  | append_singleton h e ih => rw [KdTree.build_snoc]; exact .insert _ _ _ (ih fun e' he' => hd e' (by simp [he'])) (hd e (by simp))

theorem KdTree.nearestPath_least (t : KdTree T D P w) (ht : t.Reachable) (q : Vec T D) (hq : NearestSound.dom q := by trivial) :
    (entries t.root = [] ∧ t.nearestPath q = .error .exception) ∨
    ∃ path e, t.nearestPath q = .ok path ∧ t.root.get? path = some e ∧
      ∀ e' ∈ entries t.root, kdDistance e.1 q ≤ kdDistance e'.1 q := by
  have hd := ht.entries_dom
  have hi := ht.inv
  unfold KdTree.nearestPath
  cases hroot : t.root with
  | nil => exact .inl ⟨rfl, rfl⟩
  | node p pl l r =>
    right
    rw [hroot] at hd hi
    have hp := nearest_post q (.node p pl l r) [] (0 : BitVec w) ([], kdDistance q p) hi hq hd
    refine ⟨(nearestHelper q (.node p pl l r) [] (0 : BitVec w) ([], kdDistance q p)).1, ?_⟩
    rcases hp.src with h | ⟨rest, e, h1, h2, h3⟩
    · refine ⟨(p, pl), rfl, by rw [h]; rfl, ?_⟩
      intro e' he'
      have := hp.le_all e' he'
      rw [h] at this
      rwa [NearestSound.comm p q (hd (p, pl) (by simp [entries])) hq]
    · refine ⟨e, rfl, by rw [h1]; exact h2, ?_⟩
      intro e' he'
      have := hp.le_all e' he'
      rwa [h3] at this

/-- `nearest` returns a stored entry at least *computed* distance, in any arithmetic in which pruning is sound. -/
theorem KdTree.nearest_least (t : KdTree T D P w) (ht : t.Reachable) (q : Vec T D) (hq : NearestSound.dom q := by trivial) :
    (entries t.root = [] → t.nearest q = .error .exception) ∧
    (entries t.root ≠ [] → ∃ e ∈ entries t.root, t.nearest q = .ok e ∧
      ∀ e' ∈ entries t.root, kdDistance e.1 q ≤ kdDistance e'.1 q) := by
  rcases KdTree.nearestPath_least t ht q hq with ⟨h1, h2⟩ | ⟨path, e, h1, h2, h3⟩
  · refine ⟨fun _ => by simp [KdTree.nearest, h2], fun h => absurd h1 h⟩
  · have hm := get?_mem _ _ _ h2
    refine ⟨fun h => by rw [h] at hm; simp at hm, fun _ => ⟨e, hm, ?_, h3⟩⟩
    simp [KdTree.nearest, h1, h2]

/-- A stored point is its own nearest neighbour (the use in `MeshTriangleAdder::set_opposite_halfedges`). -/
theorem C05_nearest_of_stored (t : KdTree T D P w) (ht : t.Reachable) (e : Vec T D × P) (he : e ∈ entries t.root) :
    ∃ pl, t.nearest e.1 = .ok (e.1, pl) ∧ (e.1, pl) ∈ entries t.root := by
  obtain ⟨e', he', h1, h2⟩ := (KdTree.nearest_least t ht e.1 (ht.entries_dom e he)).2 (List.ne_nil_of_mem he)
  have := NearestSound.sep e'.1 e.1 (ht.entries_dom e' he') (ht.entries_dom e he) (h2 e he)
  exact ⟨e'.2, by rw [h1, ← this], by rw [← this]; exact he'⟩

/-- **C05** Writing through the payload reference returned by `nearest(q)`: exactly the payload of the returned point
changes, no other payload, no point, no search result and not the size. -/
theorem C05_write [LawfulBEq (Vec T D)] (t t' : KdTree T D P w) (ht : t.Reachable) (q : Vec T D) (f : P → P)
    (hw : t.modifyNearest q f = .ok t') (hq : NearestSound.dom q := by trivial) :
    ∃ e ∈ entries t.root, t.nearest q = .ok e ∧
      entries t'.root = (entries t.root).map (fun x => if x.1 == e.1 then (x.1, f x.2) else x) ∧
      (∀ x, t'.search x = t.search x) ∧ t'.getSize = t.getSize := by
  rcases KdTree.nearestPath_least t ht q hq with ⟨_, h2⟩ | ⟨path, e, h1, h2, _⟩
  · simp [KdTree.modifyNearest, h2] at hw
  · simp only [KdTree.modifyNearest, h1, Except.ok.injEq] at hw
    subst hw
    refine ⟨e, get?_mem _ _ _ h2, by simp [KdTree.nearest, h1, h2], ?_, ?_, rfl⟩
    · exact modify_entries f _ _ _ (inv_pairwise _ _ ht.inv) h2
    · intro x; exact search_modify f _ _ _ _

/-- **C05** Points of a reachable tree are pairwise different, so "the payload of a point" is well defined. -/
theorem C05_points_distinct [LawfulBEq (Vec T D)] (t : KdTree T D P w) (ht : t.Reachable) :
    ((entries t.root).map Prod.fst).Nodup := by
  rw [List.Nodup, List.pairwise_map]
  exact (inv_pairwise _ _ ht.inv).imp (fun h => by simpa using h)
end Generic

section Stored
variable [NeZero D] [LinearOrder T] [Zero T] [Add T] [Sub T] [Mul T] [Neg T] [HasSqrt T] [StoredSound T D] [BEq (Vec T D)]
  [LawfulBEq (Vec T D)]

theorem KdTree.nearestPath_of_stored (t : KdTree T D P w) (hi : t.root.Inv (0 : BitVec w))
    (ha : Apart ((entries t.root).map Prod.fst)) (e : Vec T D × P) (he : e ∈ entries t.root) :
    ∃ path, t.nearestPath e.1 = .ok path ∧ t.root.get? path = some e := by
  have hnd : ((entries t.root).map Prod.fst).Nodup := by
    rw [List.Nodup, List.pairwise_map]
    exact (inv_pairwise _ _ hi).imp (fun h => by simpa using h)
  unfold KdTree.nearestPath
  cases hroot : t.root with
  | nil => rw [hroot] at he; simp [entries] at he
  | node p pl l r =>
    rw [hroot] at hi ha he hnd
    obtain ⟨_, h2, h3⟩ := stored_post e.1 (.node p pl l r) [] (0 : BitVec w) ([], kdDistance e.1 p) hi
    have h2 := h2 ⟨e, he, rfl⟩
    refine ⟨_, rfl, ?_⟩
    have hsame : ∀ e' ∈ entries (.node p pl l r), kdDistance e'.1 e.1 ≤ kdDistance e.1 e.1 → e' = e := by
      intro e' he' hd
      exact List.inj_on_of_nodup_map hnd he' he
        (ha e'.1 (List.mem_map_of_mem he') e.1 (List.mem_map_of_mem he) hd)
    rcases h3 with h | ⟨rest, e', g1, g2, g3⟩
    · rw [h] at h2 ⊢
      dsimp only at h2 ⊢
      rw [StoredSound.comm] at h2
      rw [← hsame (p, pl) (by simp [entries]) h2]; rfl
    · rw [g3] at h2
      rw [g1, ← hsame e' (get?_mem _ _ _ g2) h2]; exact g2

/-- A stored point is found again if the computed distance tells the stored points apart. -/
theorem KdTree.nearest_of_stored (t : KdTree T D P w) (hi : t.root.Inv (0 : BitVec w))
    (ha : Apart ((entries t.root).map Prod.fst)) (e : Vec T D × P) (he : e ∈ entries t.root) : t.nearest e.1 = .ok e := by
  obtain ⟨path, h1, h2⟩ := KdTree.nearestPath_of_stored t hi ha e he
  simp [KdTree.nearest, h1, h2]

/-- Writing through the reference returned for a stored point. -/
theorem KdTree.write_of_stored (t : KdTree T D P w) (hi : t.root.Inv (0 : BitVec w))
    (ha : Apart ((entries t.root).map Prod.fst)) (e : Vec T D × P) (he : e ∈ entries t.root) (f : P → P) :
    ∃ t', t.modifyNearest e.1 f = .ok t' ∧ t'.root.Inv (0 : BitVec w) ∧
      entries t'.root = (entries t.root).map (fun x => if x.1 == e.1 then (x.1, f x.2) else x) := by
  obtain ⟨path, h1, h2⟩ := KdTree.nearestPath_of_stored t hi ha e he
  refine ⟨⟨t.root.modifyAt f path, t.size⟩, by simp [KdTree.modifyNearest, h1], modify_inv _ _ _ _ hi, ?_⟩
  exact modify_entries f _ _ _ (inv_pairwise _ _ hi) h2
end Stored

section Real

theorem kdDistance_real {D : Nat} (a b : Vec ℝ D) : kdDistance a b = Spec.dist a b := by
  unfold kdDistance Spec.dist
  rw [sqrt_real, foldl_add_eq_sum (fun i => (a i - b i) * (a i - b i))]
  simp only [pow_two]

theorem Spec.dist_comm {D : Nat} (a b : Fin D → ℝ) : Spec.dist a b = Spec.dist b a := by
  unfold Spec.dist; congr 1; exact Finset.sum_congr rfl (fun i _ => by ring)

theorem Spec.abs_coord_le_dist {D : Nat} (a b : Fin D → ℝ) (i : Fin D) : |a i - b i| ≤ Spec.dist a b := by
  unfold Spec.dist
  rw [← Real.sqrt_sq_eq_abs]
  exact Real.sqrt_le_sqrt (Finset.single_le_sum (f := fun i => (a i - b i) ^ 2) (fun i _ => sq_nonneg _) (Finset.mem_univ i))

theorem Spec.dist_self {D : Nat} (a : Fin D → ℝ) : Spec.dist a a = 0 := by simp [Spec.dist]

theorem Spec.eq_of_dist_le_zero {D : Nat} (a b : Fin D → ℝ) (h : Spec.dist a b ≤ 0) : a = b := by
  funext i
  have := (Spec.abs_coord_le_dist a b i).trans h
  exact sub_eq_zero.1 (abs_eq_zero.1 (le_antisymm this (abs_nonneg _)))

/-- Pruning is sound over the reals, for all points. -/
instance nearestSound_real (D : Nat) : NearestSound ℝ D where
  dom _ := True
  left q p r a _ _ _ h1 h2 := by
    rw [kdDistance_real, stdAbs_eq, not_lt]
    refine le_trans ?_ (Spec.abs_coord_le_dist r q a)
    rw [abs_of_neg h1, abs_of_nonneg (by linarith)]; linarith
  right q p r a _ _ _ h1 h2 := by
    rw [kdDistance_real, stdAbs_eq, not_lt]
    refine le_trans ?_ (Spec.abs_coord_le_dist r q a)
    rw [abs_of_nonneg (not_lt.1 h1), abs_of_nonpos (by linarith)]; linarith
  comm a b _ _ := by rw [kdDistance_real, kdDistance_real, Spec.dist_comm]
  sep p q _ _ h := by
    rw [kdDistance_real, kdDistance_real, Spec.dist_self] at h
    exact Spec.eq_of_dist_le_zero p q h

instance storedSound_real (D : Nat) : StoredSound ℝ D where
  side _ _ := sub_neg
  comm a b := by rw [kdDistance_real, kdDistance_real, Spec.dist_comm]
  self_le p q := by
    rw [kdDistance_real, kdDistance_real, Spec.dist_self]; exact Real.sqrt_nonneg _

theorem apart_real {D : Nat} (ps : List (Vec ℝ D)) : Apart ps := by
  intro p _ q _ h
  rw [kdDistance_real, kdDistance_real, Spec.dist_self] at h
  exact Spec.eq_of_dist_le_zero p q h

variable [NeZero D] [BEq (Vec ℝ D)]

/-- **C04** (any reachable tree) `nearest` throws on an empty tree and otherwise returns a stored entry at least
distance. -/
theorem C04_nearest_reachable (t : KdTree ℝ D P w) (ht : t.Reachable) (q : Vec ℝ D) :
    (entries t.root = [] → t.nearest q = .error .exception) ∧
    (entries t.root ≠ [] → ∃ e ∈ entries t.root, t.nearest q = .ok e ∧
      ∀ e' ∈ entries t.root, Spec.dist e.1 q ≤ Spec.dist e'.1 q) := by
  have := KdTree.nearest_least t ht q
  simpa only [kdDistance_real] using this

/-- **C04** After any history of insertions `nearest` throws if nothing was inserted and otherwise returns an inserted
point that is at least as close to the query as every inserted point; **C05**, first half: together with the
payload of the first insertion of that point. -/
theorem C04_nearest [LawfulBEq (Vec ℝ D)] (h : List (Vec ℝ D × P)) (q : Vec ℝ D) :
    (h = [] → (KdTree.build w h).nearest q = .error .exception) ∧
    (h ≠ [] → ∃ e ∈ Spec.firstEntries h, (KdTree.build w h).nearest q = .ok e ∧
      ∀ e' ∈ h, Spec.dist e.1 q ≤ Spec.dist e'.1 q) := by
  have hp := (KdTree.build_refines (w := w) h).2.1
  have hc := C04_nearest_reachable (KdTree.build w h) (KdTree.build_reachable h) q
  constructor
  · intro h0; apply hc.1; subst h0; rfl
  · intro h0
    have hne : entries (KdTree.build w h).root ≠ [] := by
      obtain ⟨e, he⟩ := List.exists_mem_of_ne_nil h h0
      obtain ⟨e', he', _⟩ := (Spec.mem_firstEntries_key h e.1).2 ⟨e, he, by simp⟩
      intro hn
      rw [hn] at hp
      rw [hp.nil_eq.symm] at he'
      simp at he'
    obtain ⟨e, he, h1, h2⟩ := hc.2 hne
    refine ⟨e, hp.mem_iff.1 he, h1, fun e' he' => ?_⟩
    obtain ⟨e'', he'', heq⟩ := (Spec.mem_firstEntries_key h e'.1).2 ⟨e', he', by simp⟩
    rw [← eq_of_beq heq]
    exact h2 e'' (hp.mem_iff.2 he'')

end Real

/-! ### Concrete cases -/
section Examples

/-- Three insertions, one of them a duplicate point with a different payload. -/
def exHist : List (Vec Int 2 × String) := [(![1, 2], "a"), (![1, 2], "b"), (![0, 5], "c"), (![1, -7], "d")]

example : (KdTree.build 8 exHist).search ![0, 5] = true ∧ (KdTree.build 8 exHist).search ![0, 6] = false := by decide
example : ((KdTree.build 8 exHist).insert ![1, -7] "x").2 = false ∧ ((KdTree.build 8 exHist).insert ![1, -8] "x").2 = true := by
  decide
example : (KdTree.build 8 exHist).getSize.toNat = 3 := by decide
example : (exHist.map Prod.fst).dedup.length < 2 ^ 8 := by decide
/-- A one-bit size type wraps after two points. -/
example : (KdTree.build 1 [((![0] : Vec Int 1), ()), (![1], ())]).isEmpty = true := by decide
example : Spec.firstEntries exHist = [(![1, 2], "a"), (![0, 5], "c"), (![1, -7], "d")] := by decide
/-! The theorems applied. -/
example : (KdTree.build 8 exHist).search ![0, 5] = true := (C01_search_iff_inserted exHist ![0, 5]).2 ⟨(![0, 5], "c"), by decide, by decide⟩
example : (KdTree.build 8 exHist).search ![0, 6] = false := by
  rw [← Bool.not_eq_true, C01_search_iff_mem]; decide
/-- A new point is reported as new and stored, a known one changes nothing. -/
example : ((KdTree.build 8 exHist).insert ![1, -8] "x").2 = true ∧ ((KdTree.build 8 exHist).insert ![1, 2] "x").1 = KdTree.build 8 exHist :=
  ⟨(C02_insert exHist ![1, -8] "x").1.2 (by decide), (C02_insert exHist ![1, 2] "x").2.1 (by decide)⟩
example : (KdTree.build 8 exHist).getSize.toNat = 3 % 2 ^ 8 := C03_size_mod exHist
example : (KdTree.build 8 exHist).getSize.toNat = 3 := (C03_size_exact exHist (by decide)).1
example : (KdTree.build 1 [((![0] : Vec Int 1), ()), (![1], ())]).isEmpty = true := C03_size_wraps _ (by decide)

open Classical in
/-- Three points on a line, the first one inserted twice. -/
noncomputable def exLine : List (Vec ℝ 1 × String) := [(![1], "a"), (![4], "b"), (![1], "c"), (![9], "d")]

theorem firstEntries_subset {V P : Type*} [BEq V] (h : List (V × P)) : Spec.firstEntries h ⊆ h := by
  induction h using List.reverseRecOn with
  | nil => simp [Spec.firstEntries]
  | append_singleton h e ih =>
    have e1 : Spec.firstEntries (h ++ [e]) =
        if (Spec.firstEntries h).any (fun x => x.1 == e.1) then Spec.firstEntries h else Spec.firstEntries h ++ [e] := by
      unfold Spec.firstEntries; rw [List.foldl_append]; rfl
    rw [e1]
    split
    · exact fun x hx => List.mem_append_left _ (ih hx)
    · exact List.append_subset.2 ⟨fun x hx => List.mem_append_left _ (ih hx), by simp⟩

open Classical in
/-- 5 is nearest to 4. -/
example : (KdTree.build 8 exLine).nearest ![5] = .ok (![4], "b") := by
  obtain ⟨e, h1, h2, h3⟩ := (C04_nearest exLine ![5]).2 (by simp [exLine])
  have h4 := h3 (![4], "b") (by simp [exLine])
  have d : ∀ x y : ℝ, Spec.dist (![x] : Vec ℝ 1) ![y] = |x - y| := fun x y => by
    simp [Spec.dist, Real.sqrt_sq_eq_abs]
  have h5 : e ∈ exLine := firstEntries_subset exLine h1
  rw [h2]
  have hd : Spec.dist (![4] : Vec ℝ 1) ![5] = 1 := by rw [d]; norm_num
  simp only [exLine, List.mem_cons, List.not_mem_nil, or_false] at h5
  rcases h5 with rfl | rfl | rfl | rfl
  · exfalso; simp only [d] at h4; norm_num at h4
  · rfl
  · exfalso; simp only [d] at h4; norm_num at h4
  · exfalso; simp only [d] at h4; norm_num at h4

open Classical in
/-- A stored point is its own nearest neighbour, also after the payload of some point was overwritten. -/
example (t : KdTree ℝ 1 String 8) (h : (KdTree.build 8 exLine).modifyNearest ![5] (fun _ => "z") = .ok t) (p : Vec ℝ 1) (s : String)
    (hp : (p, s) ∈ entries t.root) : (∃ pl, t.nearest p = .ok (p, pl)) ∧ ((entries t.root).map Prod.fst).Nodup ∧
      ∀ e' ∈ entries t.root, ∃ e, t.nearest ![7] = .ok e ∧ Spec.dist e.1 ![7] ≤ Spec.dist e'.1 ![7] := by
  have ht : t.Reachable := .write _ _ _ _ (KdTree.build_reachable _) h
  obtain ⟨pl, h1, -⟩ := C05_nearest_of_stored t ht (p, s) hp
  refine ⟨⟨pl, h1⟩, C05_points_distinct t ht, fun e' he' => ?_⟩
  obtain ⟨e, -, h2, h3⟩ := (C04_nearest_reachable t ht ![7]).2 (List.ne_nil_of_mem he')
  exact ⟨e, h2, h3 e' he'⟩

open Classical in
/-- Overwriting the payload of the point nearest to 5 leaves the set of points alone. -/
example (t : KdTree ℝ 1 String 8) (h : (KdTree.build 8 exLine).modifyNearest ![5] (fun _ => "z") = .ok t) :
    t.search ![9] = true ∧ t.getSize = (KdTree.build 8 exLine).getSize := by
  obtain ⟨e, -, -, -, h1, h2⟩ := C05_write (KdTree.build 8 exLine) t (KdTree.build_reachable _) ![5] (fun _ => "z") h
  refine ⟨?_, h2⟩
  rw [h1, C01_search_iff_mem]
  simp [exLine]
end Examples
end Verif
