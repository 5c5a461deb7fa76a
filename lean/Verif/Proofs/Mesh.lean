import Mathlib.Data.List.Basic
import Mathlib.Data.List.Range
import Mathlib.Tactic.Ring
import Mathlib.Tactic.Linarith
import Verif.Model.Mesh
import Verif.Spec.Mesh
import Verif.Proofs.Res

set_option linter.unusedSectionVars false

/-
Closed form of the mesh built from any list of triangles.
-/
namespace Verif
open Spec

section
variable {V : Type}

/-- Number the corners: a corner equal to an already seen point gets its number, otherwise a new one. -/
def weldStep [BEq V] (s : List V × List Nat) (c : V) : List V × List Nat :=
  match s.1.findIdx? (· == c) with
  | some i => (s.1, s.2 ++ [i])
  | none => (s.1 ++ [c], s.2 ++ [s.1.length])

def weld [BEq V] (cs : List V) : List V × List Nat := cs.foldl weldStep ([], [])

/-- Half-edges starting at vertex `i`, when corner `k` has vertex `as[k]`. -/
def hesOf (as : List Nat) (i : Nat) : List Nat := (List.range as.length).filter fun k => as[k]? == some i

def vertsOf (n : Nat) (as : List Nat) : List MeshVertex := (List.range n).map fun i => ⟨i, hesOf as i⟩

def heOf (M : Nat) (as : List Nat) (k : Nat) : Halfedge :=
  ⟨k, k / 3, as.getD k 0, nextCorner k, prevCorner k, M - 1⟩

def hesListOf (M : Nat) (as : List Nat) : List Halfedge := (List.range as.length).map (heOf M as)

def facetsOf (n : Nat) : List Facet := (List.range n).map fun f => ⟨3 * f⟩

/-- The closed form. -/
def meshOf (M : Nat) (pts : List V) (as : List Nat) : HalfedgeMesh V :=
  ⟨pts, vertsOf pts.length as, hesListOf M as, facetsOf (as.length / 3)⟩

/-- Bookkeeping kept by welding. -/
structure Welded (pts : List V) (as : List Nat) : Prop where
  lt : ∀ v ∈ as, v < pts.length
  le : pts.length ≤ as.length

theorem Welded.nil : Welded ([] : List V) [] := ⟨by simp, by simp⟩

theorem Welded.step [BEq V] {s : List V × List Nat} (h : Welded s.1 s.2) (c : V) :
    Welded (weldStep s c).1 (weldStep s c).2 := by
  unfold weldStep
  cases hf : s.1.findIdx? (· == c) with
  | some i =>
    have hi := (List.findIdx?_eq_some_iff_getElem.1 hf).1
    refine ⟨?_, by simp; have := h.le; omega⟩
    intro v hv
    simp only [List.mem_append, List.mem_singleton] at hv
    rcases hv with hv | rfl
    · exact h.lt v hv
    · exact hi
  | none =>
    refine ⟨?_, by simp; exact h.le⟩
    intro v hv
    simp only [List.mem_append, List.mem_singleton, List.length_append, List.length_singleton] at hv ⊢
    rcases hv with hv | rfl
    · have := h.lt v hv; omega
    · omega

theorem weldStep_length [BEq V] (s : List V × List Nat) (c : V) : (weldStep s c).2.length = s.2.length + 1 := by
  unfold weldStep; split <;> simp

theorem weld_append [BEq V] (cs ds : List V) : weld (cs ++ ds) = ds.foldl weldStep (weld cs) := by
  simp [weld]

theorem weld_welded [BEq V] (cs : List V) : Welded (weld cs).1 (weld cs).2 := by
  induction cs using List.reverseRecOn with
  | nil => exact Welded.nil
  | append_singleton cs c ih => rw [weld_append]; exact ih.step c

theorem weld_length [BEq V] (cs : List V) : (weld cs).2.length = cs.length := by
  induction cs using List.reverseRecOn with
  | nil => rfl
  | append_singleton cs c ih => rw [weld_append]; simp [weldStep_length, ih]

theorem hesOf_snoc (as : List Nat) (v i : Nat) :
    hesOf (as ++ [v]) i = hesOf as i ++ (if v = i then [as.length] else []) := by
  unfold hesOf
  rw [List.length_append, List.length_singleton, List.range_succ, List.filter_append]
  congr 1
  · apply List.filter_congr
    intro k hk
    rw [List.getElem?_append_left (by simpa using hk)]
  · by_cases h : v = i <;> simp [h]

theorem hesOf_eq_nil (as : List Nat) (i : Nat) (h : ∀ v ∈ as, v < i) : hesOf as i = [] := by
  unfold hesOf
  rw [List.filter_eq_nil_iff]
  intro k hk hc
  simp only [beq_iff_eq] at hc
  exact absurd (h i (List.mem_of_getElem? hc)) (lt_irrefl _)

theorem mem_hesOf (as : List Nat) (i k : Nat) : k ∈ hesOf as i ↔ as[k]? = some i := by
  unfold hesOf
  simp only [List.mem_filter, List.mem_range, beq_iff_eq, and_iff_right_iff_imp]
  intro h
  exact (List.getElem?_eq_some_iff.1 h).1

theorem hesOf_pairwise (as : List Nat) (i : Nat) : (hesOf as i).Pairwise (· < ·) :=
  List.Pairwise.filter _ List.pairwise_lt_range

theorem vertsOf_length (n : Nat) (as : List Nat) : (vertsOf n as).length = n := by simp [vertsOf]

theorem vertsOf_snoc_point (n : Nat) (as : List Nat) (h : ∀ v ∈ as, v < n) :
    vertsOf (n + 1) as = vertsOf n as ++ [⟨n, []⟩] := by
  simp [vertsOf, List.range_succ, hesOf_eq_nil as n h]

theorem addHalfedgeIndex_last (v : MeshVertex) (h : Nat) (hv : v.hes.Pairwise (· ≤ ·)) (hl : ∀ x ∈ v.hes, x ≤ h) :
    v.addHalfedgeIndex h = { v with hes := v.hes ++ [h] } := by
  unfold MeshVertex.addHalfedgeIndex
  congr 1
  apply List.mergeSort_of_pairwise
  simp only [decide_eq_true_eq]
  rw [List.pairwise_append]
  exact ⟨hv, List.pairwise_singleton _ _, by simpa using hl⟩

theorem vertsOf_push (n : Nat) (as : List Nat) (v : Nat) :
    (vertsOf n as).modify v (·.addHalfedgeIndex as.length) = vertsOf n (as ++ [v]) := by
  apply List.ext_getElem?
  intro i
  rw [List.getElem?_modify]
  by_cases hi : i < n
  · simp only [vertsOf, List.getElem?_map, List.getElem?_range hi, Option.map_some, hesOf_snoc]
    by_cases hv : v = i
    · simp only [hv, if_true, Option.map_eq_map, Option.map_some]
      rw [addHalfedgeIndex_last]
      · exact (hesOf_pairwise as i).imp le_of_lt
      · intro x hx
        exact le_of_lt (List.getElem?_eq_some_iff.1 ((mem_hesOf as i x).1 hx)).1
    · simp [hv]
  · have : (vertsOf n as)[i]? = none := by simp [vertsOf]; omega
    have h2 : (vertsOf n (as ++ [v]))[i]? = none := by simp [vertsOf]; omega
    rw [this, h2]; simp

/-! ### The steps of `addTriangle` -/

theorem toIdx_of_lt {M n : Nat} (h : n < M) : toIdx M n = n := Nat.mod_eq_of_lt h

theorem handleValid_of_lt {M n : Nat} (h : n + 1 < M) : handleValid M n = true := by
  simp [handleValid, invalidHandle]; omega

theorem pointsAddIndex_of_lt {M n : Nat} (h : n + 1 < M) : pointsAddIndex M (n + 1) = n := by
  unfold pointsAddIndex
  rw [toIdx_of_lt h, show n + 1 + (M - 1) = n + M by omega, Nat.add_mod_right, Nat.mod_eq_of_lt (by omega)]

theorem createOrFind_step [BEq V] (dbg : Bool) (M : Nat) (pts : List V) (as bs : List Nat) (hes : List Halfedge) (fs : List Facet)
    (c : V) (has : ∀ v ∈ as, v < pts.length) (hM : pts.length + 1 < M) :
    createOrFindVertex dbg M ⟨pts, vertsOf pts.length as, hes, fs⟩ c
      = .ok (⟨(weldStep (pts, bs) c).1, vertsOf (weldStep (pts, bs) c).1.length as, hes, fs⟩,
          (weldStep (pts, bs) c).2.getLastD 0) := by
  unfold createOrFindVertex weldStep pointsContains
  cases hf : pts.findIdx? (· == c) with
  | some i =>
    have hi := (List.findIdx?_eq_some_iff_getElem.1 hf).1
    simp [show i < M by omega, ok_bind, handleValid_of_lt (show i + 1 < M by omega), geoAssert_true]
  | none =>
    simp only [show pts.length < M by omega, if_true, ok_bind, List.length_append, List.length_singleton,
      pointsAddIndex_of_lt hM, handleValid_of_lt hM, geoAssert_true, vertsOf_length,
      toIdx_of_lt (show pts.length < M by omega)]
    rw [vertsOf_snoc_point _ _ has]
    simp

theorem addCorner_step (dbg : Bool) (M : Nat) (pts : List V) (as : List Nat) (hes : List Halfedge) (fs : List Facet)
    (fi : Nat) (first : Bool) (v : Nat) (hv : v < pts.length) (hp : pts.length < M) (hl : hes.length = as.length)
    (hh : as.length + 1 < M) (hfs : fs.length + 1 < M) :
    addCorner dbg M (⟨pts, vertsOf pts.length as, hes, fs⟩, fi) first v
      = .ok (⟨pts, vertsOf pts.length (as ++ [v]), hes ++ [⟨as.length, M - 1, v, M - 1, M - 1, M - 1⟩],
          if first then fs ++ [⟨as.length⟩] else fs⟩, if first then fs.length else fi) := by
  unfold addCorner
  simp only [hl, toIdx_of_lt (show as.length < M by omega), handleValid_of_lt hh, geoAssert_true, ok_bind,
    toIdx_of_lt (show fs.length < M by omega), vertsOf_length, hv, decide_true,
    handleValid_of_lt (show v + 1 < M by omega), invalidHandle, vecModify, if_true, vertsOf_push]
  cases first
  · simp [geoAssert_true, ok_bind]
  · simp [geoAssert_true, ok_bind, handleValid_of_lt hfs]

theorem modify_append_at {α : Type*} (l r : List α) (i : Nat) (f : α → α) :
    (l ++ r).modify (l.length + i) f = l ++ r.modify i f := by
  induction l with
  | nil => simp
  | cons a l ih => simp [Nat.succ_add, List.modify_succ_cons, ih]

theorem linkTriangle_step (M fi : Nat) (hs : List Halfedge) (a b c : Halfedge) (hM : hs.length + 3 < M) :
    linkTriangle M fi (hs ++ [a, b, c]) = .ok (hs ++
      [{ a with facet := fi, next := hs.length + 1, prev := hs.length + 2 },
       { b with facet := fi, next := hs.length + 2, prev := hs.length },
       { c with facet := fi, next := hs.length, prev := hs.length + 1 }]) := by
  have e3 : (hs.length + 3 + (M - 1)) % M = hs.length + 2 := by
    rw [show hs.length + 3 + (M - 1) = hs.length + 2 + M by omega, Nat.add_mod_right, Nat.mod_eq_of_lt (by omega)]
  have e2 : (hs.length + 2 + (M - 1)) % M = hs.length + 1 := by
    rw [show hs.length + 2 + (M - 1) = hs.length + 1 + M by omega, Nat.add_mod_right, Nat.mod_eq_of_lt (by omega)]
  have e1 : (hs.length + 1 + (M - 1)) % M = hs.length := by
    rw [show hs.length + 1 + (M - 1) = hs.length + M by omega, Nat.add_mod_right, Nat.mod_eq_of_lt (by omega)]
  unfold linkTriangle
  simp only [List.length_append, List.length_cons, List.length_nil, Nat.zero_add, Nat.reduceAdd, Nat.add_sub_cancel,
    toIdx_of_lt (show hs.length < M by omega), toIdx_of_lt hM, e3]
  rw [show hs.length + 3 - hs.length = 3 by omega]
  have m0 : ∀ (x y z : Halfedge) (f : Halfedge → Halfedge), (hs ++ [x, y, z]).modify hs.length f = hs ++ [f x, y, z] := by
    intro x y z f
    have := modify_append_at hs [x, y, z] 0 f
    simpa using this
  have m1 : ∀ (x y z : Halfedge) (f : Halfedge → Halfedge), (hs ++ [x, y, z]).modify (hs.length + 1) f = hs ++ [x, f y, z] := by
    intro x y z f
    have := modify_append_at hs [x, y, z] 1 f
    simpa using this
  have m2 : ∀ (x y z : Halfedge) (f : Halfedge → Halfedge), (hs ++ [x, y, z]).modify (hs.length + 2) f = hs ++ [x, y, f z] := by
    intro x y z f
    have := modify_append_at hs [x, y, z] 2 f
    simpa using this
  simp only [List.range', List.foldlM_cons, List.foldlM_nil, linkOne, vecModify]
  rw [if_pos (by simp), ok_bind, m0, if_pos (by simp), ok_bind, m1, if_pos (by simp), ok_bind]
  rw [show hs.length + 1 + 1 = hs.length + 2 from rfl, m2]
  simp [toIdx_of_lt (show hs.length + 1 < M by omega), toIdx_of_lt (show hs.length + 2 < M by omega), e1, e2, pure_eq_ok]

theorem getLastD_snoc (l : List Nat) (a d : Nat) : (l ++ [a]).getLastD d = a := by simp

theorem weldStep_snd [BEq V] (s : List V × List Nat) (c : V) :
    (weldStep s c).2 = s.2 ++ [(weldStep s c).2.getLastD 0] := by
  unfold weldStep; split <;> simp

theorem weldStep_fst_length [BEq V] (s : List V × List Nat) (c : V) :
    s.1.length ≤ (weldStep s c).1.length ∧ (weldStep s c).1.length ≤ s.1.length + 1 := by
  unfold weldStep; split <;> simp

theorem weldStep_fst [BEq V] (pts : List V) (as bs : List Nat) (c : V) :
    (weldStep (pts, as) c).1 = (weldStep (pts, bs) c).1 := by
  unfold weldStep; dsimp only; split <;> rfl

/-- Adding one triangle to a mesh in closed form gives the closed form with three more corners. -/
theorem addTriangle_step [BEq V] (dbg : Bool) (M : Nat) (s : List V × List Nat) (hs : Welded s.1 s.2)
    (n : Nat) (hn : s.2.length = 3 * n) (hM : s.2.length + 3 < M) (t : V × V × V) :
    addTriangle dbg M (meshOf M s.1 s.2) t
      = .ok (meshOf M ([t.1, t.2.1, t.2.2].foldl weldStep s).1 ([t.1, t.2.1, t.2.2].foldl weldStep s).2) := by
  obtain ⟨pts, as⟩ := s
  dsimp only at hs hn hM
  obtain ⟨a, b, c⟩ := t
  simp only [List.foldl_cons, List.foldl_nil]
  generalize hs0 : weldStep (pts, as) a = s0
  generalize hs1 : weldStep s0 b = s1
  generalize hs2 : weldStep s1 c = s2
  have w0 : Welded s0.1 s0.2 := hs0 ▸ Welded.step (s := (pts, as)) hs a
  have w1 : Welded s1.1 s1.2 := hs1 ▸ w0.step b
  have w2 : Welded s2.1 s2.2 := hs2 ▸ w1.step c
  have l0 : s0.2.length = as.length + 1 := hs0 ▸ weldStep_length (pts, as) a
  have l1 : s1.2.length = as.length + 2 := by have := hs1 ▸ weldStep_length s0 b; omega
  have l2 : s2.2.length = as.length + 3 := by have := hs2 ▸ weldStep_length s1 c; omega
  have p0 := weldStep_fst_length (pts, as) a
  have p1 := weldStep_fst_length s0 b
  have p2 := weldStep_fst_length s1 c
  rw [hs0] at p0; rw [hs1] at p1; rw [hs2] at p2
  have hle := hs.le
  set v0 := s0.2.getLastD 0 with hv0
  set v1 := s1.2.getLastD 0 with hv1
  set v2 := s2.2.getLastD 0 with hv2
  have a0 : s0.2 = as ++ [v0] := by have := weldStep_snd (pts, as) a; rw [hs0] at this; exact this
  have a1 : s1.2 = as ++ [v0] ++ [v1] := by have := weldStep_snd s0 b; rw [hs1] at this; rw [this, ← a0]
  have a2 : s2.2 = as ++ [v0] ++ [v1] ++ [v2] := by have := weldStep_snd s1 c; rw [hs2] at this; rw [this, ← a1]
  have b0 : v0 < s0.1.length := w0.lt _ (by rw [a0]; simp)
  have b1 : v1 < s1.1.length := w1.lt _ (by rw [a1]; simp)
  have b2 : v2 < s2.1.length := w2.lt _ (by rw [a2]; simp)
  have q0 : ∀ v ∈ as, v < s0.1.length := fun v hv => lt_of_lt_of_le (hs.lt v hv) p0.1
  have q1 : ∀ v ∈ as, v < s1.1.length := fun v hv => lt_of_lt_of_le (q0 v hv) p1.1
  dsimp only at p0
  unfold addTriangle meshOf
  have h0 := createOrFind_step dbg M pts as as (hesListOf M as) (facetsOf (as.length / 3)) a hs.lt (by omega)
  have h1 := createOrFind_step dbg M s0.1 as s0.2 (hesListOf M as) (facetsOf (as.length / 3)) b q0 (by omega)
  have h2 := createOrFind_step dbg M s1.1 as s1.2 (hesListOf M as) (facetsOf (as.length / 3)) c q1 (by omega)
  rw [hs0] at h0
  rw [show (s0.1, s0.2) = s0 from rfl, hs1] at h1
  rw [show (s1.1, s1.2) = s1 from rfl, hs2] at h2
  rw [← hv0] at h0; rw [← hv1] at h1; rw [← hv2] at h2
  dsimp only
  rw [h0, ok_bind]; dsimp only
  rw [h1, ok_bind]; dsimp only
  rw [h2, ok_bind]; dsimp only
  rw [handleValid_of_lt (show v0 + 1 < M by omega), handleValid_of_lt (show v1 + 1 < M by omega),
    handleValid_of_lt (show v2 + 1 < M by omega), Bool.true_and, Bool.true_and, geoAssert_true, ok_bind]
  have hdiv : as.length / 3 = n := by omega
  have hfl : (facetsOf (as.length / 3)).length = n := by simp [facetsOf, hdiv]
  rw [addCorner_step dbg M s2.1 as (hesListOf M as) (facetsOf (as.length / 3)) _ true v0 (by omega) (by omega)
    (by simp [hesListOf]) (by omega) (by omega), ok_bind, if_pos rfl, if_pos rfl]
  rw [addCorner_step dbg M s2.1 (as ++ [v0]) _ _ _ false v1 (by omega) (by omega)
    (by simp [hesListOf]) (by simp; omega) (by simp [hfl]; omega), ok_bind, if_neg (by simp), if_neg (by simp)]
  rw [addCorner_step dbg M s2.1 (as ++ [v0] ++ [v1]) _ _ _ false v2 (by omega) (by omega)
    (by simp [hesListOf]) (by simp; omega) (by simp [hfl]; omega), ok_bind, if_neg (by simp), if_neg (by simp)]
  dsimp only
  rw [hfl, handleValid_of_lt (show n + 1 < M by omega), geoAssert_true, ok_bind]
  rw [decide_eq_true (by simp), geoAssert_true, ok_bind]
  rw [List.append_assoc, List.append_assoc]
  simp only [List.cons_append, List.nil_append]
  rw [linkTriangle_step _ _ _ _ _ _ (by simp [hesListOf]; omega), ok_bind, a2]
  have hlen : (hesListOf M as).length = as.length := by simp [hesListOf]
  rw [hlen]
  congr 2
  · -- half-edges
    unfold hesListOf
    simp only [List.length_append, List.length_singleton]
    rw [List.range_succ, List.range_succ, List.range_succ]
    simp only [List.map_append, List.append_assoc, List.map_cons, List.map_nil, List.cons_append, List.nil_append]
    congr 1
    · apply List.map_congr_left
      intro k hk
      have hk' : k < as.length := by simpa using hk
      unfold heOf
      congr 1
      simp [List.getD_eq_getElem?_getD, List.getElem?_append_left hk']
    · simp only [heOf, nextCorner, prevCorner, List.cons.injEq, Halfedge.mk.injEq, and_true, true_and]
      refine ⟨⟨by omega, by simp [List.getD_eq_getElem?_getD], by omega, by omega⟩,
        ⟨by omega, ?_, by omega, by omega⟩, ⟨by omega, ?_, by omega, by omega⟩⟩
      · rw [List.getD_eq_getElem?_getD, List.getElem?_append_right (by omega)]; simp
      · rw [List.getD_eq_getElem?_getD, List.getElem?_append_right (by omega)]; simp
  · unfold facetsOf
    simp only [List.length_append, List.length_singleton]
    rw [show (as.length + 1 + 1 + 1) / 3 = n + 1 by omega, List.range_succ, hdiv]
    simp [hn]

theorem corners_append (ts us : List (V × V × V)) : corners (ts ++ us) = corners ts ++ corners us := by
  simp [corners]

theorem corners_length (ts : List (V × V × V)) : (corners ts).length = 3 * ts.length := by
  induction ts with
  | nil => rfl
  | cons t ts ih => rw [show t :: ts = [t] ++ ts from rfl, corners_append]; simp [ih]; simp [corners]; omega

/-- The mesh built from any triangles that fit the index type is the closed form. -/
theorem addTriangles_eq [BEq V] (dbg : Bool) (M : Nat) (ts : List (V × V × V)) (hM : 3 * ts.length < M) :
    addTriangles dbg M ts = .ok (meshOf M (weld (corners ts)).1 (weld (corners ts)).2) := by
  induction ts using List.reverseRecOn with
  | nil =>
    simp [addTriangles, weld, corners, meshOf, vertsOf, hesListOf, facetsOf, HalfedgeMesh.empty, pure_eq_ok]
  | append_singleton ts t ih =>
    simp only [List.length_append, List.length_singleton] at hM
    have ih := ih (by omega)
    unfold addTriangles at ih ⊢
    rw [List.foldlM_append, ih, ok_bind]
    simp only [List.foldlM_cons, List.foldlM_nil]
    have hl : (weld (corners ts)).2.length = 3 * ts.length := by rw [weld_length, corners_length]
    rw [addTriangle_step dbg M _ (weld_welded _) ts.length hl (by omega) t, ok_bind, pure_eq_ok,
      corners_append, weld_append]
    rfl

/-! ### Closed form with arbitrary opposite links -/

/-- `m` is what `addTriangles` built from `ts`, except that the opposite links may be anything
(`set_opposite_halfedges` changes nothing else). -/
def BuiltFrom [BEq V] (dbg : Bool) (M : Nat) (ts : List (V × V × V)) (m : HalfedgeMesh V) : Prop :=
  ∃ m0, addTriangles dbg M ts = .ok m0 ∧ m.points = m0.points ∧ m.vertices = m0.vertices ∧ m.facets = m0.facets ∧
    m.halfedges.map ({ · with opp := 0 }) = m0.halfedges.map ({ · with opp := 0 })

def heOfO (o : Nat → Nat) (as : List Nat) (k : Nat) : Halfedge :=
  ⟨k, k / 3, as.getD k 0, nextCorner k, prevCorner k, o k⟩

def meshOfO (o : Nat → Nat) (pts : List V) (as : List Nat) : HalfedgeMesh V :=
  ⟨pts, vertsOf pts.length as, (List.range as.length).map (heOfO o as), facetsOf (as.length / 3)⟩

theorem meshOf_eq (M : Nat) (pts : List V) (as : List Nat) : meshOf M pts as = meshOfO (fun _ => M - 1) pts as := rfl

theorem BuiltFrom.of_add [BEq V] {dbg : Bool} {M : Nat} {ts : List (V × V × V)} {m : HalfedgeMesh V}
    (h : addTriangles dbg M ts = .ok m) : BuiltFrom dbg M ts m := ⟨m, h, rfl, rfl, rfl, rfl⟩

theorem BuiltFrom.eq [BEq V] {dbg : Bool} {M : Nat} {ts : List (V × V × V)} {m : HalfedgeMesh V}
    (h : BuiltFrom dbg M ts m) (hM : 3 * ts.length < M) :
    ∃ o, m = meshOfO o (weld (corners ts)).1 (weld (corners ts)).2 := by
  obtain ⟨m0, h0, hp, hv, hf, hh⟩ := h
  rw [addTriangles_eq dbg M ts hM, Except.ok.injEq] at h0
  subst h0
  have hl : m.halfedges.length = (weld (corners ts)).2.length := by
    have := congrArg List.length hh
    simpa [meshOf, hesListOf] using this
  refine ⟨fun k => (m.halfedges.getD k ⟨0, 0, 0, 0, 0, 0⟩).opp, ?_⟩
  obtain ⟨p, v, hes, f⟩ := m
  simp only at hp hv hf hh hl
  subst hp hv hf
  unfold meshOfO
  dsimp only [meshOf]
  congr 1
  apply List.ext_getElem?
  intro k
  by_cases hk : k < (weld (corners ts)).2.length
  · have e := congrArg (·[k]?) hh
    simp only [List.getElem?_map, meshOf, hesListOf, List.getElem?_range hk,
      List.getElem?_eq_getElem (show k < hes.length by omega), Option.map_some, Option.some.injEq] at e ⊢
    simp only [heOfO, List.getD_eq_getElem?_getD, List.getElem?_eq_getElem (show k < hes.length by omega),
      Option.getD_some]
    generalize hes[k] = x at e ⊢
    obtain ⟨a, b, c, d, e', g⟩ := x
    simp only [heOf, Halfedge.mk.injEq, List.getD_eq_getElem?_getD] at e ⊢
    simp_all
  · rw [List.getElem?_eq_none (by omega), List.getElem?_eq_none (by simp; omega)]

theorem vecGet_of_getElem? {α : Type*} {l : List α} {i : Nat} {a : α} (h : l[i]? = some a) : vecGet l i = .ok a := by
  simp [vecGet, h]

theorem vecGet_eq_ok {α : Type*} {l : List α} {i : Nat} {a : α} : vecGet l i = .ok a ↔ l[i]? = some a := by
  unfold vecGet
  cases l[i]? <;> simp

section
variable (o : Nat → Nat) (pts : List V) (as : List Nat)

theorem meshOfO_he {k : Nat} (hk : k < as.length) : vecGet (meshOfO o pts as).halfedges k = .ok (heOfO o as k) :=
  vecGet_of_getElem? (by simp [meshOfO, List.getElem?_range hk])

theorem meshOfO_vert {i : Nat} (hi : i < pts.length) : vecGet (meshOfO o pts as).vertices i = .ok ⟨i, hesOf as i⟩ :=
  vecGet_of_getElem? (by simp [meshOfO, vertsOf, List.getElem?_range hi])

theorem meshOfO_facet {i : Nat} (hi : i < as.length / 3) : vecGet (meshOfO o pts as).facets i = .ok ⟨3 * i⟩ :=
  vecGet_of_getElem? (by simp [meshOfO, facetsOf, List.getElem?_range hi])

theorem nextCorner_lt {k n : Nat} (hk : k < 3 * n) : nextCorner k < 3 * n := by unfold nextCorner; omega
theorem prevCorner_lt {k n : Nat} (hk : k < 3 * n) : prevCorner k < 3 * n := by unfold prevCorner; omega
theorem prev_next (k : Nat) : prevCorner (nextCorner k) = k := by unfold nextCorner prevCorner; omega
theorem next_prev (k : Nat) : nextCorner (prevCorner k) = k := by unfold nextCorner prevCorner; omega
theorem next_next_next (k : Nat) : nextCorner (nextCorner (nextCorner k)) = k := by unfold nextCorner; omega
theorem next_div (k : Nat) : nextCorner k / 3 = k / 3 := by unfold nextCorner; omega
theorem prev_div (k : Nat) : prevCorner k / 3 = k / 3 := by unfold prevCorner; omega

theorem getD_lt (hw : Welded pts as) {k : Nat} (hk : k < as.length) : as.getD k 0 < pts.length := by
  rw [List.getD_eq_getElem?_getD, List.getElem?_eq_getElem hk, Option.getD_some]
  exact hw.lt _ (List.getElem_mem hk)

theorem meshOfO_heNext {n k : Nat} (hn : as.length = 3 * n) (hk : k < as.length) :
    (meshOfO o pts as).heNext (heOfO o as k) = .ok (heOfO o as (nextCorner k)) :=
  meshOfO_he o pts as (by rw [hn] at hk ⊢; exact nextCorner_lt hk)

theorem meshOfO_hePrev {n k : Nat} (hn : as.length = 3 * n) (hk : k < as.length) :
    (meshOfO o pts as).hePrev (heOfO o as k) = .ok (heOfO o as (prevCorner k)) :=
  meshOfO_he o pts as (by rw [hn] at hk ⊢; exact prevCorner_lt hk)

theorem meshOfO_heVertex (hw : Welded pts as) {k : Nat} (hk : k < as.length) :
    (meshOfO o pts as).heVertex (heOfO o as k) = .ok ⟨as.getD k 0, hesOf as (as.getD k 0)⟩ :=
  meshOfO_vert o pts as (getD_lt pts as hw hk)

theorem meshOfO_heFacet {n k : Nat} (hn : as.length = 3 * n) (hk : k < as.length) :
    (meshOfO o pts as).heFacet (heOfO o as k) = .ok ⟨3 * (k / 3)⟩ :=
  meshOfO_facet o pts as (i := k / 3) (by omega)

theorem meshOfO_heVector (hw : Welded pts as) {k : Nat} (hk : k < as.length) :
    (meshOfO o pts as).heVector (heOfO o as k) = vecGet pts (as.getD k 0) := by
  unfold HalfedgeMesh.heVector
  rw [meshOfO_heVertex o pts as hw hk, ok_bind]
  rfl

theorem meshOfO_heNextVector (hw : Welded pts as) {n k : Nat} (hn : as.length = 3 * n) (hk : k < as.length) :
    (meshOfO o pts as).heNextVector (heOfO o as k) = vecGet pts (as.getD (nextCorner k) 0) := by
  unfold HalfedgeMesh.heNextVector HalfedgeMesh.heNextVertex
  rw [meshOfO_heNext o pts as hn hk, ok_bind,
    meshOfO_heVertex o pts as hw (by rw [hn] at hk ⊢; exact nextCorner_lt hk), ok_bind]
  rfl
end

/-! ### Welding with exact equality -/

theorem eraseDups_singleton [BEq V] (c : V) : [c].eraseDups = [c] := by simp [List.eraseDups_cons]

theorem weldStep_fst_eraseDups [BEq V] [LawfulBEq V] (cs : List V) (c : V) (bs : List Nat) :
    (weldStep (cs.eraseDups, bs) c).1 = (cs ++ [c]).eraseDups := by
  rw [List.eraseDups_append]
  unfold weldStep
  cases hf : cs.eraseDups.findIdx? (· == c) with
  | some i =>
    obtain ⟨hi, he, _⟩ := List.findIdx?_eq_some_iff_getElem.1 hf
    have hm : c ∈ cs := by
      rw [← List.mem_eraseDups, ← eq_of_beq he]; exact List.getElem_mem hi
    simp [List.removeAll, hm]
  | none =>
    have hm : c ∉ cs := by
      intro h
      rw [← List.mem_eraseDups] at h
      have := List.findIdx?_eq_none_iff.1 hf c h
      simp at this
    simp [List.removeAll, hm, eraseDups_singleton]

theorem weld_fst [BEq V] [LawfulBEq V] (cs : List V) : (weld cs).1 = cs.eraseDups := by
  induction cs using List.reverseRecOn with
  | nil => rfl
  | append_singleton cs c ih =>
    rw [weld_append]
    simp only [List.foldl_cons, List.foldl_nil]
    rw [← weldStep_fst_eraseDups cs c (weld cs).2, ← ih]

theorem weld_get [BEq V] [LawfulBEq V] (cs : List V) (k : Nat) (hk : k < cs.length) :
    (weld cs).1[(weld cs).2.getD k 0]? = some cs[k] := by
  induction cs using List.reverseRecOn with
  | nil => simp at hk
  | append_singleton cs c ih =>
    rw [weld_append]
    simp only [List.foldl_cons, List.foldl_nil]
    have hl := weld_length cs
    generalize hs : weld cs = s at ih hl ⊢
    obtain ⟨p, a⟩ := s
    dsimp only at ih hl
    by_cases hk' : k < cs.length
    · have ih := ih hk'
      have hlt := (List.getElem?_eq_some_iff.1 ih).1
      unfold weldStep
      cases hf : p.findIdx? (· == c) with
      | some i =>
        simp only [List.getElem_append_left hk']
        rw [← ih, List.getD_eq_getElem?_getD, List.getD_eq_getElem?_getD, List.getElem?_append_left (by omega)]
      | none =>
        simp only [List.getElem_append_left hk']
        rw [List.getD_eq_getElem?_getD, List.getElem?_append_left (l₁ := a) (by omega), ← List.getD_eq_getElem?_getD,
          List.getElem?_append_left hlt, ih]
    · have hke : k = cs.length := by simp at hk; omega
      subst hke
      unfold weldStep
      cases hf : p.findIdx? (· == c) with
      | some i =>
        obtain ⟨hi, he, _⟩ := List.findIdx?_eq_some_iff_getElem.1 hf
        simp only [List.getElem_concat_length]
        rw [List.getD_eq_getElem?_getD, ← hl, List.getElem?_concat_length, Option.getD_some,
          List.getElem?_eq_getElem hi, eq_of_beq he]
      | none =>
        simp only [List.getElem_concat_length]
        rw [List.getD_eq_getElem?_getD, ← hl, List.getElem?_concat_length, Option.getD_some,
          List.getElem?_concat_length]

theorem nodup_eraseDups [BEq V] [LawfulBEq V] (cs : List V) : cs.eraseDups.Nodup := by
  induction cs using List.reverseRecOn with
  | nil => simp
  | append_singleton cs c ih =>
    rw [List.eraseDups_append]
    by_cases hm : c ∈ cs
    · simpa [List.removeAll, hm] using ih
    · simp [List.removeAll, hm, List.nodup_append, ih, eraseDups_singleton]
      intro a ha he; exact hm (he ▸ ha)
end
end Verif
