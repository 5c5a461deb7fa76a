import Verif.Props.MeshAnyCoord
import Verif.Props.IeeeRayBox

set_option linter.unusedSectionVars false

/-
Property C132: building a mesh from finite IEEE numbers, however large.
-/
namespace Verif
open Spec

/-! ### Writing to one node -/
namespace KdNode
variable {V : Type u} {P : Type v}

theorem modify_get (f : P → P) (t : KdNode V P) (path : Path) (e : V × P) (h : t.get? path = some e) :
    (e.1, f e.2) ∈ entries (t.modifyAt f path) ∧
    ∀ e' ∈ entries (t.modifyAt f path), e' ∈ entries t ∨ e' = (e.1, f e.2) := by
  induction t generalizing path with
  | nil => simp [get?] at h
  | node p pl l r ihl ihr =>
    match path with
    | [] =>
      simp only [get?, Option.some.injEq] at h
      subst h
      refine ⟨by simp [modifyAt, entries], ?_⟩
      intro e' he'
      simp only [modifyAt, entries, List.mem_cons, List.mem_append] at he' ⊢
      tauto
    | false :: rest =>
      obtain ⟨h1, h2⟩ := ihl rest h
      refine ⟨by simp [modifyAt, entries, h1], ?_⟩
      intro e' he'
      simp only [modifyAt, entries, List.mem_cons, List.mem_append] at he' ⊢
      rcases he' with he' | he' | he'
      · tauto
      · have := h2 e' he'; tauto
      · tauto
    | true :: rest =>
      obtain ⟨h1, h2⟩ := ihr rest h
      refine ⟨by simp [modifyAt, entries, h1], ?_⟩
      intro e' he'
      simp only [modifyAt, entries, List.mem_cons, List.mem_append] at he' ⊢
      rcases he' with he' | he' | he'
      · tauto
      · tauto
      · have := h2 e' he'; tauto

theorem modify_keep (f : P → P) (t : KdNode V P) (path : Path) (e : V × P) (h : e ∈ entries t) :
    e ∈ entries (t.modifyAt f path) ∨ (e.1, f e.2) ∈ entries (t.modifyAt f path) := by
  induction t generalizing path with
  | nil => simp [entries] at h
  | node p pl l r ihl ihr =>
    simp only [entries, List.mem_cons, List.mem_append] at h
    match path with
    | [] =>
      simp only [modifyAt, entries, List.mem_cons, List.mem_append]
      rcases h with rfl | h | h
      · simp
      · tauto
      · tauto
    | false :: rest =>
      simp only [modifyAt, entries, List.mem_cons, List.mem_append]
      rcases h with rfl | h | h
      · simp
      · have := ihl rest h; tauto
      · tauto
    | true :: rest =>
      simp only [modifyAt, entries, List.mem_cons, List.mem_append]
      rcases h with rfl | h | h
      · simp
      · tauto
      · have := ihr rest h; tauto
end KdNode

/-! ### Linking when every stored point is found again -/
section
variable {T : Type} [Zero T] [Add T] [Sub T] [Mul T] [Neg T] [HasSqrt T] [LT T] [DecidableLT T] [BEq (Vec T 3)]
variable [PartialEquivBEq (Vec T 3)] [LtCongr T 3]
open KdNode

/-- `nearest` finds every stored point of `ps` again, whatever tree of such points it is in. -/
def Refinds (w : Nat) (ps : List (Vec T 3)) : Prop :=
  ∀ (t : KdTree T 3 (List Nat) w), t.root.Inv (0 : BitVec w) → (∀ e ∈ entries t.root, e.1 ∈ ps) → ∀ q ∈ ps,
    (∃ e ∈ entries t.root, (e.1 == q) = true) → ∃ path e, t.nearestPath q = .ok path ∧ t.root.get? path = some e ∧ (e.1 == q) = true

variable (ts : List (Vec T 3 × Vec T 3 × Vec T 3)) (o : Nat → Nat)

/-- The tree lists, for every point, half-edges starting there, and those below `j` are listed. -/
structure ListsInv {w : Nat} (j : Nat) (kd : KdTree T 3 (List Nat) w) : Prop where
  inv : kd.root.Inv (0 : BitVec w)
  key : ∀ e ∈ entries kd.root, e.1 ∈ (weld (corners ts)).1
  pay : ∀ e ∈ entries kd.root, ∀ i ∈ e.2, i < 3 * ts.length ∧ ∃ p, ptAt ts i = some p ∧ (p == e.1) = true
  all : ∀ i < j, ∃ e ∈ entries kd.root, i ∈ e.2

theorem index_refinds (w : Nat) (hf : Refinds w (weld (corners ts)).1) (hrefl : ∀ p ∈ (weld (corners ts)).1, (p == p) = true) :
    ∃ kd : KdTree T 3 (List Nat) w,
    (List.range (3 * ts.length)).foldlM (oppositeIndexRound (anyMesh ts o)) KdTree.empty = .ok kd ∧ ListsInv ts (3 * ts.length) kd := by
  have key : ∀ j ≤ 3 * ts.length, ∃ kd : KdTree T 3 (List Nat) w,
      (List.range j).foldlM (oppositeIndexRound (anyMesh ts o)) KdTree.empty = .ok kd ∧ ListsInv ts j kd := by
    intro j hj
    induction j with
    | zero => exact ⟨_, rfl, trivial, by simp [KdTree.empty, entries], by simp [KdTree.empty, entries], by omega⟩
    | succ j ih =>
      obtain ⟨kd, h1, h2⟩ := ih (by omega)
      obtain ⟨p, hp⟩ := ptAt_some ts (show j < 3 * ts.length by omega)
      have hpm : p ∈ (weld (corners ts)).1 := List.mem_of_getElem? hp
      have step : ∃ kd' : KdTree T 3 (List Nat) w,
          (if kd.search p then kd.modifyNearest p (· ++ [j]) else .ok (kd.insert p [j]).1) = .ok kd' ∧ ListsInv ts (j + 1) kd' := by
        by_cases hs : kd.search p = true
        · rw [if_pos hs]
          have hst := (search_iff p kd.root (0 : BitVec w) h2.inv).1 hs
          obtain ⟨path, e, g1, g2, g3⟩ := hf kd h2.inv h2.key p hpm hst
          obtain ⟨m1, m2⟩ := modify_get (· ++ [j]) kd.root path e g2
          have hem := get?_mem _ _ _ g2
          refine ⟨⟨kd.root.modifyAt (· ++ [j]) path, kd.size⟩, by unfold KdTree.modifyNearest; rw [g1],
            modify_inv _ _ _ _ h2.inv, ?_, ?_, ?_⟩
          · intro e' he'
            rcases m2 e' he' with he' | rfl
            · exact h2.key e' he'
            · exact h2.key e hem
          · intro e' he' i hi
            rcases m2 e' he' with he' | rfl
            · exact h2.pay e' he' i hi
            · simp only [List.mem_append, List.mem_singleton] at hi
              rcases hi with hi | rfl
              · exact h2.pay e hem i hi
              · exact ⟨by omega, p, hp, BEq.symm g3⟩
          · intro i hi
            rcases Nat.lt_succ_iff_lt_or_eq.1 hi with hi | rfl
            · obtain ⟨e0, k1, k2⟩ := h2.all i hi
              rcases modify_keep (· ++ [j]) kd.root path e0 k1 with k | k
              · exact ⟨e0, k, k2⟩
              · exact ⟨_, k, by simp [k2]⟩
            · exact ⟨_, m1, by simp⟩
        · rw [if_neg hs]
          have hsf : (insertHelper p [j] kd.root (0 : BitVec w)).2 = true := by
            rw [insert_snd]; simpa [KdTree.search] using hs
          have hperm := insert_perm p [j] kd.root (0 : BitVec w) hsf
          have hmem : ∀ e, e ∈ entries (kd.insert p [j]).1.root ↔ e = (p, [j]) ∨ e ∈ entries kd.root := by
            intro e
            rw [show entries (kd.insert p [j]).1.root = entries (insertHelper p [j] kd.root (0 : BitVec w)).1 from rfl, hperm.mem_iff,
              List.mem_cons]
          refine ⟨_, rfl, insert_inv _ _ _ _ h2.inv, ?_, ?_, ?_⟩
          · intro e he
            rcases (hmem e).1 he with rfl | he
            · exact hpm
            · exact h2.key e he
          · intro e he i hi
            rcases (hmem e).1 he with rfl | he
            · simp only [List.mem_singleton] at hi
              subst hi
              exact ⟨by omega, p, hp, hrefl p hpm⟩
            · exact h2.pay e he i hi
          · intro i hi
            rcases Nat.lt_succ_iff_lt_or_eq.1 hi with hi | rfl
            · obtain ⟨e0, k1, k2⟩ := h2.all i hi
              exact ⟨e0, (hmem _).2 (.inr k1), k2⟩
            · exact ⟨_, (hmem _).2 (.inl rfl), by simp⟩
      obtain ⟨kd', g1, g2⟩ := step
      refine ⟨kd', ?_, g2⟩
      rw [List.range_succ, List.foldlM_append, h1, ok_bind]
      simp only [List.foldlM_cons, List.foldlM_nil]
      unfold oppositeIndexRound
      rw [anyMesh_he ts o (by omega), ok_bind, anyMesh_heVector ts o (by omega) hp, ok_bind, g1, ok_bind]
      rfl
  exact key _ le_rfl

/-- `j` is a half-edge from and to points equal to those of `k`. -/
def SameEdge (j k : Nat) : Prop :=
  ∃ p q p' q', ptAt ts j = some p ∧ ptAt ts k = some p' ∧ (p == p') = true ∧
    ptAt ts (nextCorner j) = some q ∧ ptAt ts (nextCorner k) = some q' ∧ (q == q') = true

theorem SameEdge.symm {j k : Nat} (h : SameEdge ts j k) : SameEdge ts k j := by
  obtain ⟨p, q, p', q', h1, h2, h3, h4, h5, h6⟩ := h
  exact ⟨p', q', p, q, h2, h1, BEq.symm h3, h5, h4, BEq.symm h6⟩

theorem findOpposite_mem (start : Vec T 3) (l : List Nat) (hl : ∀ j ∈ l, j < 3 * ts.length)
    (hex : ∃ j ∈ l, ∃ p, ptAt ts (nextCorner j) = some p ∧ (p == start) = true) :
    ∃ j ∈ l, findOpposite (anyMesh ts o) start l = .ok (some j) ∧ ∃ p, ptAt ts (nextCorner j) = some p ∧ (p == start) = true := by
  induction l with
  | nil => obtain ⟨j, hj, _⟩ := hex; simp at hj
  | cons j l ih =>
    obtain ⟨p, hp⟩ := ptAt_some ts (nextCorner_lt (hl j (by simp)))
    unfold findOpposite
    rw [anyMesh_he ts o (hl j (by simp)), ok_bind, anyMesh_heNextVector ts o (hl j (by simp)) hp, ok_bind]
    by_cases h : (p == start) = true
    · exact ⟨j, by simp, if_pos h, p, hp, h⟩
    · rw [if_neg h]
      obtain ⟨i, hi, p', hp', hb⟩ := hex
      have hi' : i ∈ l := by
        rcases List.mem_cons.1 hi with rfl | hi
        · rw [hp] at hp'; cases hp'; exact absurd hb h
        · exact hi
      obtain ⟨k, hk, h1, h2⟩ := ih (fun x hx => hl x (by simp [hx])) ⟨i, hi', p', hp', hb⟩
      exact ⟨k, by simp [hk], h1, h2⟩

theorem set_round_refinds {w : Nat} (dbg : Bool) (hf : Refinds w (weld (corners ts)).1) (hrefl : ∀ p ∈ (weld (corners ts)).1, (p == p) = true)
    (kd : KdTree T 3 (List Nat) w) (hkd : ListsInv ts (3 * ts.length) kd) {k : Nat} (hk : k < 3 * ts.length) :
    ∃ j < 3 * ts.length, SameEdge ts j k ∧ oppositeSetRound dbg kd (anyMesh ts o) k
      = .ok (anyMesh ts (Function.update (Function.update o k j) j k)) := by
  obtain ⟨p, hp⟩ := ptAt_some ts hk
  obtain ⟨q, hq⟩ := ptAt_some ts (nextCorner_lt hk)
  have hpm : p ∈ (weld (corners ts)).1 := List.mem_of_getElem? hp
  have hqm : q ∈ (weld (corners ts)).1 := List.mem_of_getElem? hq
  obtain ⟨e0, he0, hke0⟩ := hkd.all k hk
  obtain ⟨_, p1, hp1, hpe⟩ := hkd.pay e0 he0 k hke0
  rw [hp] at hp1; cases hp1
  obtain ⟨path, e, g1, g2, g3⟩ := hf kd hkd.inv hkd.key p hpm ⟨e0, he0, BEq.symm hpe⟩
  have hem := get?_mem _ _ _ g2
  have hnear : kd.nearest p = .ok e := by unfold KdTree.nearest; rw [g1]; dsimp only; rw [g2]
  -- the entry found is the one that lists `k`
  have hee : e = e0 := by
    by_contra hne
    have hpw := inv_pairwise kd.root (0 : BitVec w) hkd.inv
    have heq : (e.1 == e0.1) = true := PartialEquivBEq.trans g3 hpe
    rcases List.pairwise_iff_getElem.1 hpw with hpw'
    obtain ⟨a, ha, rfl⟩ := List.getElem_of_mem hem
    obtain ⟨b, hb, rfl⟩ := List.getElem_of_mem he0
    rcases lt_trichotomy a b with hab | rfl | hab
    · have := hpw' a b ha hb hab
      rw [heq] at this; cases this
    · exact hne rfl
    · have := hpw' b a hb ha hab
      rw [BEq.symm heq] at this; cases this
  subst hee
  obtain ⟨j, hj, hfo, q', hq', hqq⟩ := findOpposite_mem ts o q e.2 (fun i hi => (hkd.pay e hem i hi).1) ⟨k, hke0, q, hq, hrefl q hqm⟩
  obtain ⟨hj3, p', hp', hpe'⟩ := hkd.pay e hem j hj
  refine ⟨j, hj3, ⟨p', q', p, q, hp', hp, PartialEquivBEq.trans hpe' g3, hq', hq, hqq⟩, ?_⟩
  unfold oppositeSetRound
  rw [anyMesh_he ts o hk, ok_bind, anyMesh_heNextVector ts o hk hq, ok_bind, anyMesh_heVector ts o hk hp, ok_bind,
    hnear, ok_bind, hfo, ok_bind]
  dsimp only
  rw [anyMesh_he ts o hj3, ok_bind]
  congr 1
  show HalfedgeMesh.mk _ _ _ _ = HalfedgeMesh.mk _ _ _ _
  congr 1
  show (((List.range (weld (corners ts)).2.length).map (heOfO o (weld (corners ts)).2)).modify k _).modify _ _ = _
  rw [show (heOfO o (weld (corners ts)).2 j).idx = j from rfl,
    show (heOfO o (weld (corners ts)).2 k).idx = k from rfl,
    modify_heOfO o _ k _, modify_heOfO _ _ _ _]

theorem buildMesh_refinds (dbg : Bool) (M w : Nat) (hM : 3 * ts.length < M) (hf : Refinds w (weld (corners ts)).1)
    (hrefl : ∀ p ∈ (weld (corners ts)).1, (p == p) = true) :
    ∃ o', buildMesh dbg M w ts = .ok (anyMesh ts o') ∧ ∀ k < 3 * ts.length, o' k < 3 * ts.length ∧ SameEdge ts (o' k) k := by
  obtain ⟨kd, h1, h2⟩ := index_refinds ts (fun _ => M - 1) w hf hrefl
  have hlen : (anyMesh ts (fun _ => M - 1)).halfedges.length = 3 * ts.length := by simp [meshOfO, anyMesh_length]
  have hb : buildMesh dbg M w ts = (List.range (3 * ts.length)).foldlM (oppositeSetRound dbg kd) (anyMesh ts (fun _ => M - 1)) := by
    unfold buildMesh
    rw [addTriangles_eq dbg M ts hM, ok_bind, meshOf_eq]
    unfold setOppositeHalfedges
    rw [hlen, h1, ok_bind]
  have key : ∀ j ≤ 3 * ts.length, ∃ o', (List.range j).foldlM (oppositeSetRound dbg kd) (anyMesh ts (fun _ => M - 1)) = .ok (anyMesh ts o') ∧
      ∀ k < j, o' k < 3 * ts.length ∧ SameEdge ts (o' k) k := by
    intro j hj
    induction j with
    | zero => exact ⟨_, rfl, by simp⟩
    | succ j ih =>
      obtain ⟨o', g1, g2⟩ := ih (by omega)
      have hj' : j < 3 * ts.length := by omega
      obtain ⟨i, hi, hs, hr⟩ := set_round_refinds ts o' dbg hf hrefl kd h2 hj'
      refine ⟨Function.update (Function.update o' j i) i j, ?_, ?_⟩
      · rw [List.range_succ, List.foldlM_append, g1, ok_bind]
        simp only [List.foldlM_cons, List.foldlM_nil]
        rw [hr, ok_bind]; rfl
      · intro k hk
        by_cases hki : k = i
        · subst hki
          rw [Function.update_self]
          exact ⟨hj', hs.symm ts⟩
        · rw [Function.update_of_ne hki]
          rcases Nat.lt_succ_iff_lt_or_eq.1 hk with hk | rfl
          · rw [Function.update_of_ne (by omega)]; exact g2 k hk
          · rw [Function.update_self]; exact ⟨hi, hs⟩
  obtain ⟨o', h3, h4⟩ := key _ le_rfl
  exact ⟨o', by rw [hb, h3], h4⟩
end

/-! ### Distances of finite points -/
namespace Ieee
variable {F : IeeeFormat} {D : Nat}

/-- Plus infinity or a finite number that is not negative. -/
def Pos (a : Ieee F) : Prop := a = inf false ∨ ∃ r, a.val? = some r ∧ 0 ≤ r

theorem Pos.of {a : Ieee F} (h : Nonneg a) (hn : a ≠ nan) : Pos a := h.resolve_left hn
theorem Pos.ne_nan {a : Ieee F} (h : Pos a) : a ≠ nan := by
  rcases h with rfl | ⟨r, hr, _⟩
  · simp
  · rintro rfl; simp [val?] at hr
theorem Pos.nonneg {a : Ieee F} (h : Pos a) : Nonneg a := .inr h

theorem inf_ne {s : Bool} : (inf s : Ieee F) ≠ nan := by simp

theorem Pos.add {a b : Ieee F} (ha : Pos a) (hb : Pos b) : Pos (a + b) := by
  refine .of (ha.nonneg.add hb.nonneg) ?_
  rcases ha with rfl | ⟨r, hr, h0⟩
  · rcases hb with rfl | ⟨t, ht, h1⟩
    · exact inf_ne
    · cases b <;> simp only [val?, reduceCtorEq] at ht <;> exact inf_ne
  · rcases hb with rfl | ⟨t, ht, h1⟩
    · cases a <;> simp only [val?, reduceCtorEq] at hr <;> exact inf_ne
    · obtain ⟨s, hs⟩ := add_def hr ht
      rw [hs]; exact ofReal_ne_nan _ _

theorem sub_ne_nan {a b : Ieee F} (ha : Finite a) (hb : Finite b) : a - b ≠ nan := by
  obtain ⟨x, hx⟩ := ha
  obtain ⟨y, hy⟩ := hb
  obtain ⟨s, hs⟩ := sub_def hx hy
  rw [hs]; exact ofReal_ne_nan _ _

theorem mul_self_pos' {a : Ieee F} (h : a ≠ nan) : Pos (a * a) := by
  refine .of (mul_self_nonneg' a) ?_
  rcases ext_cases h with ⟨s, rfl⟩ | ⟨r, hr⟩
  · show (@ite (Ieee F) _ (Classical.propDecidable _) _ _) ≠ _
    rw [if_neg (by simp [val?])]
    simp
  · obtain ⟨s, hs⟩ := mul_def hr hr
    rw [hs]; exact ofReal_ne_nan _ _

theorem foldl_pos {n : Nat} (f : Fin n → Ieee F) (h : ∀ i, Pos (f i)) : Pos (Fin.foldl n (fun s i => s + f i) 0) := by
  induction n with
  | zero => exact .inr ⟨0, rfl, le_rfl⟩
  | succ n ih => rw [Fin.foldl_succ_last]; exact (ih _ fun i => h _).add (h _)

theorem Pos.sqrt {a : Ieee F} (h : Pos a) : Pos (HasSqrt.sqrt a) := by
  rcases h with rfl | ⟨r, hr, h0⟩
  · exact .inl rfl
  · cases a with
    | nan => simp [val?] at hr
    | inf s => simp [val?] at hr
    | negZero => exact .inr ⟨0, rfl, le_rfl⟩
    | fin x hx =>
      simp only [val?, Option.some.injEq] at hr
      have h0 : ¬ x.1 < 0 := by rw [hr]; exact not_lt.2 h0
      show Pos (@ite (Ieee F) (x.1 < 0) _ _ _)
      rw [if_neg h0]
      exact .of (ofReal_nonneg (Real.sqrt_nonneg _)) (ofReal_ne_nan _ _)

theorem kdDistance_pos_ieee {a b : Vec (Ieee F) D} (ha : ∀ i, Finite (a i)) (hb : ∀ i, Finite (b i)) : Pos (kdDistance a b) :=
  (foldl_pos (fun i => (a i - b i) * (a i - b i)) fun i => mul_self_pos' (sub_ne_nan (ha i) (hb i))).sqrt

theorem ofReal_zero_val (s : Bool) : (ofReal (F := F) s 0).val? = some 0 :=
  ofReal_val (0 : Fl F.toFloatFormat).2 zero_small

theorem foldl_zero {n : Nat} (f : Fin n → Ieee F) (h : ∀ i, (f i).val? = some 0) :
    (Fin.foldl n (fun s i => s + f i) 0).val? = some 0 := by
  induction n with
  | zero => rfl
  | succ n ih =>
    rw [Fin.foldl_succ_last]
    obtain ⟨s, hs⟩ := add_def (ih _ fun i => h _) (h (Fin.last n))
    rw [hs, add_zero]; exact ofReal_zero_val s

/-- The distance of equal points is zero. -/
theorem kdDistance_equal {a b : Vec (Ieee F) D} (ha : ∀ i, Finite (a i)) (hb : ∀ i, Finite (b i)) (h : (a == b) = true) :
    (kdDistance a b).val? = some 0 := by
  have hz := foldl_zero (fun i => (a i - b i) * (a i - b i)) (fun i => by
    obtain ⟨x, hx⟩ := ha i
    obtain ⟨y, hy⟩ := hb i
    have hxy : x = y := by
      have := (beq_iff.1 (vec_beq_iff.1 h i)).2.2
      rw [ord_of_val hx, ord_of_val hy, EReal.coe_eq_coe_iff] at this
      exact this
    obtain ⟨s, hs⟩ := sub_def hx hy
    have h0 : (a i - b i).val? = some 0 := by rw [hs, hxy, sub_self]; exact ofReal_zero_val s
    obtain ⟨t, ht⟩ := mul_def h0 h0
    rw [ht, mul_zero]; exact ofReal_zero_val t)
  unfold kdDistance
  revert hz
  generalize Fin.foldl D (fun s i => s + (a i - b i) * (a i - b i)) 0 = z
  intro hz
  cases z with
  | nan => simp [val?] at hz
  | inf s => simp [val?] at hz
  | negZero => rfl
  | fin x hx =>
    simp only [val?, Option.some.injEq] at hz
    show (@ite (Ieee F) (x.1 < 0) _ _ _).val? = _
    rw [if_neg (by rw [hz]; exact lt_irrefl _), hz, Real.sqrt_zero]
    exact ofReal_zero_val _

/-- The side of a splitting plane is decided as by comparing. -/
theorem sub_neg_iff {a b : Ieee F} (ha : Finite a) (hb : Finite b) : a - b < 0 ↔ a < b := by
  obtain ⟨x, hx⟩ := ha
  obtain ⟨y, hy⟩ := hb
  obtain ⟨s, hs⟩ := sub_def hx hy
  rw [hs, lt_iff_val hx hy]
  have hfl : ∃ u v : Fl F.toFloatFormat, u.1 = x ∧ v.1 = y := by
    have : ∀ {c : Ieee F} {z : ℝ}, c.val? = some z → ∃ u : Fl F.toFloatFormat, u.1 = z := by
      intro c z h
      cases c <;> simp only [val?, Option.some.injEq, reduceCtorEq] at h
      · exact ⟨0, h⟩
      · exact ⟨_, h⟩
    obtain ⟨u, hu⟩ := this hx
    obtain ⟨v, hv⟩ := this hy
    exact ⟨u, v, hu, hv⟩
  obtain ⟨u, v, rfl, rfl⟩ := hfl
  have hside : (u - v : Fl F.toFloatFormat) < 0 ↔ u < v := sub_lt_zero_fl u v
  have hround : (u - v : Fl F.toFloatFormat) = Fl.round (u.1 - v.1) := rfl
  rw [hround] at hside
  rw [show (u.1 < v.1) = (u < v) from rfl, ← hside]
  rw [show ((Fl.round (u.1 - v.1) : Fl F.toFloatFormat) < 0) = ((Fl.round (u.1 - v.1) : Fl F.toFloatFormat).1 < 0) from rfl]
  unfold ofReal
  simp only
  split_ifs with h0 hs' h2
  · rw [h0]; exact Iff.rfl
  · rw [h0]; exact Iff.rfl
  · exact Iff.rfl
  · rw [lt_iff_ord (Finite.ne_nan ⟨0, rfl⟩)]
    by_cases hneg : (Fl.round (u.1 - v.1) : Fl F.toFloatFormat).1 < 0
    · rw [show @decide ((Fl.round (u.1 - v.1) : Fl F.toFloatFormat).1 < 0) (Classical.propDecidable _) = true from @decide_eq_true _ (Classical.propDecidable _) hneg]
      exact iff_of_true (EReal.bot_lt_coe 0) hneg
    · rw [show @decide ((Fl.round (u.1 - v.1) : Fl F.toFloatFormat).1 < 0) (Classical.propDecidable _) = false from @decide_eq_false _ (Classical.propDecidable _) hneg]
      exact iff_of_false not_top_lt hneg

section
variable [NeZero D] {P : Type} {w : Nat}
open KdNode

/-- The descent meets a stored query point on its way. -/
theorem stored_post_ieee (q : Vec (Ieee F) D) (hq : ∀ i, Finite (q i)) (t : KdNode (Vec (Ieee F) D) P) (path : Path) (d : BitVec w)
    (best : Path × Ieee F) (hb : best.2 ≠ nan) (hi : Inv t d) (ht : ∀ e ∈ entries t, ∀ i, Finite (e.1 i)) :
    (nearestHelper q t path d best).2 ≠ nan ∧ ord (nearestHelper q t path d best).2 ≤ ord best.2 ∧
    ((∃ e ∈ entries t, (e.1 == q) = true) → ord (nearestHelper q t path d best).2 ≤ 0) ∧
    (nearestHelper q t path d best = best ∨ ∃ rest e, (nearestHelper q t path d best).1 = path ++ rest ∧
      t.get? rest = some e ∧ (nearestHelper q t path d best).2 = kdDistance e.1 q) := by
  induction t generalizing path d best with
  | nil => exact ⟨hb, le_refl _, by simp [entries], .inl rfl⟩
  | node p pl l r ihl ihr =>
    obtain ⟨hl, hr, il, ir⟩ := hi
    have dp := ht (p, pl) (by simp [entries])
    have dl : ∀ e ∈ entries l, ∀ i, Finite (e.1 i) := fun e he => ht e (by simp [entries, he])
    have dr : ∀ e ∈ entries r, ∀ i, Finite (e.1 i) := fun e he => ht e (by simp [entries, he])
    simp only [nearestHelper]
    have hb1 : (if kdDistance p q < best.2 then (path, kdDistance p q) else best).2 ≠ nan ∧
        ord (if kdDistance p q < best.2 then (path, kdDistance p q) else best).2 ≤ ord best.2 ∧
        ord (if kdDistance p q < best.2 then (path, kdDistance p q) else best).2 ≤ ord (kdDistance p q) ∧
        ((if kdDistance p q < best.2 then (path, kdDistance p q) else best) = best ∨
         (if kdDistance p q < best.2 then (path, kdDistance p q) else best) = (path, kdDistance p q)) := by
      split
      · rename_i h
        exact ⟨(kdDistance_pos_ieee dp hq).ne_nan, ((lt_iff_ord hb).1 h).le, le_refl _, .inr rfl⟩
      · rename_i h; exact ⟨hb, le_refl _, (not_lt_iff_ord hb).1 h, .inl rfl⟩
    obtain ⟨b0, b1, b2, b3⟩ := hb1
    revert b0 b1 b2 b3
    generalize (if kdDistance p q < best.2 then (path, kdDistance p q) else best) = best1
    intro b0 b1 b2 b3
    have liftSrc : ∀ (b' : Path × Ieee F) (side : Bool) (c : KdNode (Vec (Ieee F) D) P),
        (∀ rest, (node p pl l r).get? (side :: rest) = c.get? rest) →
        ∀ (b0 : Path × Ieee F), (b0 = best ∨ ∃ rest e, b0.1 = path ++ rest ∧ (node p pl l r).get? rest = some e ∧ b0.2 = kdDistance e.1 q) →
        (b' = b0 ∨ ∃ rest e, b'.1 = (path ++ [side]) ++ rest ∧ c.get? rest = some e ∧ b'.2 = kdDistance e.1 q) →
        (b' = best ∨ ∃ rest e, b'.1 = path ++ rest ∧ (node p pl l r).get? rest = some e ∧ b'.2 = kdDistance e.1 q) := by
      intro b' side c hc b0 h0 h
      rcases h with rfl | ⟨rest, e, h1, h2, h3⟩
      · exact h0
      · exact .inr ⟨side :: rest, e, by simpa using h1, by rw [hc]; exact h2, h3⟩
    have hget : ∀ rest, (node p pl l r).get? (false :: rest) = l.get? rest := fun _ => rfl
    have hget' : ∀ rest, (node p pl l r).get? (true :: rest) = r.get? rest := fun _ => rfl
    have h1 : best1 = best ∨ ∃ rest e, best1.1 = path ++ rest ∧ (node p pl l r).get? rest = some e ∧ best1.2 = kdDistance e.1 q := by
      rcases b3 with rfl | rfl
      · exact .inl rfl
      · exact .inr ⟨[], (p, pl), by simp, rfl, rfl⟩
    have hroot : (p == q) = true → ord best1.2 ≤ 0 := by
      intro h
      refine b2.trans ?_
      rw [ord_of_val (kdDistance_equal dp hq h)]; rfl
    have hside := sub_neg_iff (hq (axisOf D d)) (dp (axisOf D d))
    by_cases hd : q (axisOf D d) - p (axisOf D d) < 0
    · simp only [hd, if_true]
      obtain ⟨L0, L1, L2, L3⟩ := ihl (path ++ [false]) (d + 1) best1 b0 il dl
      revert L0 L1 L2 L3
      generalize nearestHelper q l (path ++ [false]) (d + 1) best1 = best2
      intro L0 L1 L2 L3
      have h2 := liftSrc best2 false l hget best1 h1 L3
      have hst : (∃ e ∈ entries (node p pl l r), (e.1 == q) = true) → ord best2.2 ≤ 0 := by
        rintro ⟨e, he, heq⟩
        simp only [entries, List.mem_cons, List.mem_append] at he
        rcases he with rfl | he | he
        · exact le_trans L1 (hroot heq)
        · exact L2 ⟨e, he, heq⟩
        · exact absurd (LtCongr.lt_congr _ _ p _ (BEq.symm heq) (hside.1 hd)) (hr e he).1
      by_cases hp : stdAbs (q (axisOf D d) - p (axisOf D d)) < best2.2
      · simp only [hp, if_true]
        obtain ⟨R0, R1, R2, R3⟩ := ihr (path ++ [true]) (d + 1) best2 L0 ir dr
        exact ⟨R0, le_trans R1 (le_trans L1 b1), fun h => le_trans R1 (hst h), liftSrc _ true r hget' best2 h2 R3⟩
      · simp only [hp, if_false]
        exact ⟨L0, le_trans L1 b1, hst, h2⟩
    · simp only [hd, if_false]
      obtain ⟨R0, R1, R2, R3⟩ := ihr (path ++ [true]) (d + 1) best1 b0 ir dr
      revert R0 R1 R2 R3
      generalize nearestHelper q r (path ++ [true]) (d + 1) best1 = best2
      intro R0 R1 R2 R3
      have h2 := liftSrc best2 true r hget' best1 h1 R3
      have hst : (∃ e ∈ entries (node p pl l r), (e.1 == q) = true) → ord best2.2 ≤ 0 := by
        rintro ⟨e, he, heq⟩
        simp only [entries, List.mem_cons, List.mem_append] at he
        rcases he with rfl | he | he
        · exact le_trans R1 (hroot heq)
        · exact absurd (hside.2 (LtCongr.lt_congr _ _ p _ heq (hl e he).1)) hd
        · exact R2 ⟨e, he, heq⟩
      by_cases hp : stdAbs (q (axisOf D d) - p (axisOf D d)) < best2.2
      · simp only [hp, if_true]
        obtain ⟨L0, L1, L2, L3⟩ := ihl (path ++ [false]) (d + 1) best2 R0 il dl
        exact ⟨L0, le_trans L1 (le_trans R1 b1), fun h => le_trans L1 (hst h), liftSrc _ false l hget best2 h2 L3⟩
      · simp only [hp, if_false]
        exact ⟨R0, le_trans R1 b1, hst, h2⟩
end

/-- Finite points whose computed distances are positive unless they are equal. -/
structure Resolves (ps : List (Vec (Ieee F) D)) : Prop where
  fin : ∀ p ∈ ps, ∀ i, Finite (p i)
  pos : ∀ p ∈ ps, ∀ q ∈ ps, (p == q) = false → 0 < kdDistance p q

theorem Resolves.equal {ps : List (Vec (Ieee F) D)} (h : Resolves ps) {p q : Vec (Ieee F) D} (hp : p ∈ ps) (hq : q ∈ ps)
    (hd : ord (kdDistance p q) ≤ 0) : (p == q) = true := by
  by_contra hne
  have := h.pos p hp q hq (by simpa using hne)
  rw [lt_iff_ord (kdDistance_pos_ieee (h.fin p hp) (h.fin q hq)).ne_nan] at this
  exact absurd this (not_lt.2 hd)

theorem Resolves.subset {ps qs : List (Vec (Ieee F) D)} (h : Resolves qs) (hs : ∀ p ∈ ps, p ∈ qs) : Resolves ps :=
  ⟨fun p hp => h.fin p (hs p hp), fun p hp q hq => h.pos p (hs p hp) q (hs q hq)⟩

open KdNode in
theorem refinds_of (w : Nat) (ps : List (Vec (Ieee F) 3)) (h : Resolves ps) : Refinds w ps := by
  intro t hi hk q hq hst
  have hqf := h.fin q hq
  unfold KdTree.nearestPath
  cases hr : t.root with
  | nil => rw [hr] at hst; simp [entries] at hst
  | node p pl l r =>
    rw [hr] at hi hk hst
    have hpm := hk (p, pl) (by simp [entries])
    obtain ⟨_, _, g2, g3⟩ := stored_post_ieee q hqf (.node p pl l r) [] (0 : BitVec w) ([], kdDistance q p)
      (kdDistance_pos_ieee hqf (h.fin p hpm)).ne_nan hi (fun e he => h.fin _ (hk e he))
    have hle := g2 hst
    rcases g3 with g3 | ⟨rest, e, e1, e2, e3⟩
    · refine ⟨[], (p, pl), by dsimp only; rw [g3], rfl, ?_⟩
      rw [g3] at hle
      exact BEq.symm (h.equal hq hpm hle)
    · refine ⟨rest, e, by dsimp only; rw [e1, List.nil_append], e2, ?_⟩
      rw [e3] at hle
      exact h.equal (hk e (get?_mem _ _ _ e2)) hq hle

/-- **C132.**  Triangles whose corners have finite coordinates -- of any size, with zeros of either sign -- such that the computed distance of
different corners is not zero: debug and release builds yield a mesh, and every half-edge is linked to a half-edge between
equal points. -/
theorem C132_finite (ts : List (Vec (Ieee F) 3 × Vec (Ieee F) 3 × Vec (Ieee F) 3)) (dbg : Bool) (M w : Nat) (hM : 3 * ts.length < M)
    (h : Resolves (corners ts)) :
    ∃ m, buildMesh dbg M w ts = .ok m ∧ BuiltFrom dbg M ts m ∧
      ∀ g ∈ m.halfedges, ∃ g' p p' q q', m.heOpposite g = .ok g' ∧
        m.heVector g = .ok p ∧ m.heVector g' = .ok p' ∧ (p' == p) = true ∧
        m.heNextVector g = .ok q ∧ m.heNextVector g' = .ok q' ∧ (q' == q) = true := by
  have hsub := (weld_any (corners ts)).1
  have hrefl : ∀ p ∈ (weld (corners ts)).1, (p == p) = true := by
    intro p hp
    rw [vec_beq_iff]
    intro i
    exact beq_iff.2 ⟨(h.fin p (hsub p hp) i).ne_nan, (h.fin p (hsub p hp) i).ne_nan, rfl⟩
  obtain ⟨o, h1, h2⟩ := buildMesh_refinds ts dbg M w hM (refinds_of w _ (h.subset hsub)) hrefl
  refine ⟨_, h1, anyMesh_built ts dbg M hM o, ?_⟩
  intro g hg
  obtain ⟨k, hk, rfl⟩ := List.mem_map.1 hg
  rw [List.mem_range, anyMesh_length] at hk
  obtain ⟨hlt, p', q', p, q, a1, a2, a3, a4, a5, a6⟩ := h2 k hk
  exact ⟨_, p, p', q, q', anyMesh_he ts o hlt, anyMesh_heVector ts o hk a2, anyMesh_heVector ts o hlt a1, a3,
    anyMesh_heNextVector ts o hk a5, anyMesh_heNextVector ts o hlt a4, a6⟩

/-! ### Which points are told apart -/

theorem ofReal_spos {s : Bool} {r : ℝ} (h : 0 < F.rnd r) : 0 < ord (ofReal (F := F) s r) := by
  have hq : 0 < (Fl.round r : Fl F.toFloatFormat).1 := h
  unfold ofReal
  simp only
  rw [if_neg hq.ne']
  split_ifs with h2
  · exact EReal.coe_lt_coe_iff.2 hq
  · rw [show @decide ((Fl.round r : Fl F.toFloatFormat).1 < 0) (Classical.propDecidable _) = false from
      @decide_eq_false _ (Classical.propDecidable _) (not_lt.2 hq.le)]
    exact EReal.coe_lt_top 0

theorem spos_val {a : Ieee F} {r : ℝ} (h : a.val? = some r) (hp : 0 < ord a) : 0 < r := by
  rw [ord_of_val h] at hp; exact EReal.coe_lt_coe_iff.1 hp

theorem spos_add {a b : Ieee F} (ha : Pos a) (hb : Pos b) (h : 0 < ord a ∨ 0 < ord b) : 0 < ord (a + b) := by
  rcases ha with rfl | ⟨u, hu, h0⟩
  · rcases hb with rfl | ⟨v, hv, h1⟩
    · exact EReal.coe_lt_top 0
    · cases b <;> simp only [val?, reduceCtorEq] at hv <;> exact EReal.coe_lt_top 0
  · rcases hb with rfl | ⟨v, hv, h1⟩
    · cases a <;> simp only [val?, reduceCtorEq] at hu <;> exact EReal.coe_lt_top 0
    · obtain ⟨s, hs⟩ := add_def hu hv
      rw [hs]
      apply ofReal_spos
      rcases h with h | h
      · exact (spos_val hu h).trans_le (F.rounds.le_of (val_mem hu).1 (by linarith))
      · exact (spos_val hv h).trans_le (F.rounds.le_of (val_mem hv).1 (by linarith))

theorem foldl_spos {n : Nat} (f : Fin n → Ieee F) (h : ∀ i, Pos (f i)) (j : Fin n) (hj : 0 < ord (f j)) :
    0 < ord (Fin.foldl n (fun s i => s + f i) 0) := by
  induction n with
  | zero => exact j.elim0
  | succ n ih =>
    rw [Fin.foldl_succ_last]
    induction j using Fin.lastCases with
    | last => exact spos_add (foldl_pos _ fun i => h _) (h _) (.inr hj)
    | cast j => exact spos_add (foldl_pos _ fun i => h _) (h _) (.inl (ih (fun i => f i.castSucc) (fun i => h _) j hj))

theorem spos_sqrt {a : Ieee F} (h : Pos a) (hp : 0 < ord a) : 0 < ord (HasSqrt.sqrt a) := by
  rcases h with rfl | ⟨r, hr, h0⟩
  · exact EReal.coe_lt_top 0
  · have hr0 := spos_val hr hp
    have hm := (val_mem hr).1
    cases a with
    | nan => simp [val?] at hr
    | inf s => simp [val?] at hr
    | negZero => simp only [val?, Option.some.injEq] at hr; linarith
    | fin x hx =>
      simp only [val?, Option.some.injEq] at hr
      show 0 < ord (@ite (Ieee F) (x.1 < 0) _ _ _)
      rw [if_neg (by rw [hr]; exact not_lt.2 h0), hr]
      apply ofReal_spos
      rcases le_total r 1 with h1 | h1
      · refine hr0.trans_le (F.rounds.le_of hm ?_)
        apply Real.le_sqrt_of_sq_le
        nlinarith
      · exact one_pos.trans_le (F.rounds.le_of F.one_mem (Real.one_le_sqrt.2 h1))

/-- The distance of points that are resolved in some coordinate is positive, even if it overflows. -/
theorem kdDistance_spos {a b : Vec (Ieee F) D} (ha : ∀ i, Finite (a i)) (hb : ∀ i, Finite (b i)) {i : Fin D} {x y : ℝ}
    (hx : (a i).val? = some x) (hy : (b i).val? = some y) (h : Resolved F.emin x y) : 0 < kdDistance a b := by
  rw [lt_iff_ord (kdDistance_pos_ieee ha hb).ne_nan]
  show ((0 : ℝ) : EReal) < _
  refine spos_sqrt (foldl_pos _ fun j => mul_self_pos' (sub_ne_nan (ha j) (hb j)))
    (foldl_spos (fun i => (a i - b i) * (a i - b i)) (fun j => mul_self_pos' (sub_ne_nan (ha j) (hb j))) i ?_)
  have hnn := sub_ne_nan (ha i) (hb i)
  rcases ext_cases hnn with ⟨s, hs⟩ | ⟨r, hr⟩
  · rcases Wild.mul_self (a := a i - b i) (.inr ⟨s, hs⟩) with h1 | h1
    · exact absurd h1 (mul_self_pos' hnn).ne_nan
    · rw [h1]; exact EReal.coe_lt_top 0
  · obtain ⟨s, hs⟩ := sub_def hx hy
    have hr' : r = F.rnd (x - y) := by
      have : (ofReal (F := F) s (x - y)).val? = some r := by rw [← hs]; exact hr
      unfold ofReal at this
      simp only at this
      split_ifs at this with h0 _ _ <;> simp only [val?, Option.some.injEq, reduceCtorEq] at this
      · rw [← this]; exact h0.symm
      · rw [← this]; exact h0.symm
      · rw [← this]; rfl
    obtain ⟨t, ht⟩ := mul_def hr hr
    rw [ht]
    apply ofReal_spos
    rw [hr', ← abs_mul_abs_self, F.rounds.abs]
    have h0 : 0 < |x - y| := abs_pos.2 (sub_ne_zero.2 h.1)
    have h1 : 0 < F.rnd |x - y| := by
      apply rnd_pos h0
      intro k hk
      refine le_trans (zpow_le_zpow_right₀ (by norm_num) ?_) (h.2 k hk)
      have := F.emin_le k hk
      omega
    apply rnd_pos (mul_pos h1 h1)
    intro k hk
    have hk0 := F.emin_le k hk
    have h2 : (2 : ℝ) ^ ((k + 1) / 2) ≤ F.rnd |x - y| := by
      refine F.rounds.le_of (representable_two_pow F.one_lt_prec ?_) (h.2 k hk)
      intro k' hk'
      rw [hk, Option.some.injEq] at hk'
      omega
    refine le_trans ?_ (mul_le_mul h2 h2 (two_zpow_pos _).le h1.le)
    rw [← zpow_add₀ (by norm_num)]
    apply zpow_le_zpow_right₀ (by norm_num)
    omega

/-- Finite points of which any two are equal or differ by `2^-537` (`double`) in some coordinate. -/
theorem resolves_of {ps : List (Vec (Ieee F) D)} (hf : ∀ p ∈ ps, ∀ i, Finite (p i))
    (h : ∀ p ∈ ps, ∀ q ∈ ps, (p == q) = false → ∃ i x y, (p i).val? = some x ∧ (q i).val? = some y ∧ Resolved F.emin x y) : Resolves ps :=
  ⟨hf, fun p hp q hq hne => by
    obtain ⟨i, x, y, hx, hy, hr⟩ := h p hp q hq hne
    exact kdDistance_spos (hf p hp) (hf q hq) hx hy hr⟩

/-! ### Examples -/
section Examples

/-- The multiples of `2 ^ 1000`, as `double`s. -/
noncomputable def huge (n : ℤ) (h : |n| < 2 ^ 20 := by norm_num) : Ieee double64 :=
  fin ⟨n * 2 ^ (1000 : ℤ), n, 1000, lt_of_lt_of_le h (by show (2 : ℤ) ^ 20 ≤ 2 ^ 53; norm_num), by intro k hk; cases hk; norm_num, rfl⟩ (by
    show |(n : ℝ) * 2 ^ (1000 : ℤ)| < 2 ^ 1024
    have h1 : |(n : ℝ)| < 2 ^ 20 := by exact_mod_cast h
    rw [abs_mul, show |(2 : ℝ) ^ (1000 : ℤ)| = 2 ^ 1000 from abs_of_pos (by positivity)]
    calc |(n : ℝ)| * 2 ^ 1000 < 2 ^ 20 * 2 ^ 1000 := mul_lt_mul_of_pos_right h1 (by positivity)
      _ = 2 ^ 1020 := by rw [← pow_add]
      _ ≤ 2 ^ 1024 := pow_le_pow_right₀ (by norm_num) (by norm_num))

theorem huge_val (n : ℤ) (h : |n| < 2 ^ 20) : (huge n h).val? = some ((n : ℝ) * 2 ^ (1000 : ℤ)) := rfl

theorem huge_resolved {m n : ℤ} (h : m ≠ n) : Resolved double64.emin ((m : ℝ) * 2 ^ (1000 : ℤ)) (n * 2 ^ (1000 : ℤ)) := by
  have hpos : (0 : ℝ) < 2 ^ (1000 : ℤ) := by positivity
  refine ⟨fun e => h (by exact_mod_cast mul_right_cancel₀ hpos.ne' e), fun k hk => ?_⟩
  rw [← sub_mul, abs_mul, abs_of_pos hpos]
  have h1 : (1 : ℝ) ≤ |(m : ℝ) - n| := by exact_mod_cast Int.one_le_abs (sub_ne_zero.2 h)
  calc (2 : ℝ) ^ ((k + 1) / 2) ≤ 2 ^ (1000 : ℤ) := zpow_le_zpow_right₀ (by norm_num) (by cases hk; norm_num)
    _ ≤ _ := le_mul_of_one_le_left hpos.le h1

/-- Points whose coordinates are multiples of `2 ^ 1000`. -/
def HugePt (p : Vec (Ieee double64) 3) : Prop := ∀ i, ∃ n h, p i = huge n h

theorem resolves_huge {ps : List (Vec (Ieee double64) 3)} (h : ∀ p ∈ ps, HugePt p) : Resolves ps := by
  apply resolves_of
  · intro p hp i
    obtain ⟨n, hn, e⟩ := h p hp i
    rw [e]; exact ⟨_, huge_val n hn⟩
  · intro p hp q hq hne
    have : ¬ ∀ i, (p i == q i) = true := fun hc => by rw [vec_beq_iff.2 hc] at hne; cases hne
    push Not at this
    obtain ⟨i, hi⟩ := this
    obtain ⟨m, hm, e⟩ := h p hp i
    obtain ⟨n, hn, e'⟩ := h q hq i
    refine ⟨i, _, _, by rw [e]; exact huge_val m hm, by rw [e']; exact huge_val n hn, huge_resolved ?_⟩
    rintro rfl
    rw [e, e'] at hi
    exact hi (beq_iff.2 ⟨(by intro h; cases h), (by intro h; cases h), rfl⟩)

noncomputable def h64 (a b c : ℤ) (ha : |a| < 2 ^ 20 := by norm_num) (hb : |b| < 2 ^ 20 := by norm_num) (hc : |c| < 2 ^ 20 := by norm_num) :
    Vec (Ieee double64) 3 := ![huge a ha, huge b hb, huge c hc]

theorem h64_huge (a b c : ℤ) (ha : |a| < 2 ^ 20) (hb : |b| < 2 ^ 20) (hc : |c| < 2 ^ 20) : HugePt (h64 a b c ha hb hc) := by
  intro i; fin_cases i
  exacts [⟨a, ha, rfl⟩, ⟨b, hb, rfl⟩, ⟨c, hc, rfl⟩]

/-- A tetrahedron with edges of length `2 ^ 1000`; every computed distance of different corners is infinite. -/
example (dbg : Bool) : ∃ m, buildMesh dbg (2 ^ 32) 64 [(h64 0 0 0, h64 0 1 0, h64 1 0 0), (h64 0 0 0, h64 1 0 0, h64 0 0 1),
      (h64 0 0 0, h64 0 0 1, h64 0 1 0), (h64 1 0 0, h64 0 1 0, h64 0 0 1)] = .ok m ∧
    ∀ g ∈ m.halfedges, ∃ g', m.heOpposite g = .ok g' := by
  obtain ⟨m, h1, _, h2⟩ := C132_finite (F := double64) [(h64 0 0 0, h64 0 1 0, h64 1 0 0), (h64 0 0 0, h64 1 0 0, h64 0 0 1),
      (h64 0 0 0, h64 0 0 1, h64 0 1 0), (h64 1 0 0, h64 0 1 0, h64 0 0 1)] dbg (2 ^ 32) 64 (by norm_num) (by
    apply resolves_huge
    intro p hp
    simp only [corners, List.flatMap_cons, List.flatMap_nil, List.cons_append, List.nil_append, List.mem_cons, List.append_nil, List.not_mem_nil, or_false] at hp
    rcases hp with rfl | rfl | rfl | rfl | rfl | rfl | rfl | rfl | rfl | rfl | rfl | rfl <;> exact h64_huge _ _ _ _ _ _)
  exact ⟨m, h1, fun g hg => by obtain ⟨g', _, _, _, _, h, _⟩ := h2 g hg; exact ⟨g', h⟩⟩
end Examples
end Ieee
end Verif
