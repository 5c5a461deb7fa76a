import Verif.Props.Mesh

set_option linter.unusedSectionVars false

/-
C49: the line indices of a mesh.
-/
namespace Verif
open Spec

/-- Strict lexicographic order of index pairs. -/
def Spec.lexLt (e f : Nat × Nat) : Prop := e.1 < f.1 ∨ (e.1 = f.1 ∧ e.2 < f.2)

theorem edgeLt_iff (e f : Nat × Nat) : edgeLt e f = true ↔ lexLt e f := by
  simp [edgeLt, lexLt]

theorem edgeEq_iff (e f : Nat × Nat) (he : e.1 ≤ e.2) (hf : f.1 ≤ f.2) : edgeEq e f = true ↔ e = f := by
  obtain ⟨a, b⟩ := e; obtain ⟨c, d⟩ := f
  simp [edgeEq] at *; omega

theorem edgeInsert_mem (es : List (Nat × Nat)) (e : Nat × Nat) (he : e.1 ≤ e.2) (hn : ∀ f ∈ es, f.1 ≤ f.2)
    (x : Nat × Nat) : x ∈ edgeInsert es e ↔ x ∈ es ∨ x = e := by
  induction es with
  | nil => simp [edgeInsert]
  | cons f rest ih =>
    have hf := hn f (by simp)
    have ih := ih (fun g hg => hn g (by simp [hg]))
    unfold edgeInsert
    split
    · simp only [List.mem_cons, ih]; tauto
    · split
      · rename_i h
        have := (edgeEq_iff f e hf he).1 h
        subst this
        simp only [List.mem_cons]; tauto
      · simp only [List.mem_cons]; tauto

theorem edgeInsert_sorted (es : List (Nat × Nat)) (e : Nat × Nat) (he : e.1 ≤ e.2) (hn : ∀ f ∈ es, f.1 ≤ f.2)
    (hs : es.Pairwise lexLt) : (edgeInsert es e).Pairwise lexLt := by
  induction es with
  | nil => simp [edgeInsert]
  | cons f rest ih =>
    have hf := hn f (by simp)
    have hn' : ∀ g ∈ rest, g.1 ≤ g.2 := fun g hg => hn g (by simp [hg])
    rw [List.pairwise_cons] at hs
    unfold edgeInsert
    by_cases h1 : edgeLt f e = true
    · rw [if_pos h1, List.pairwise_cons]
      refine ⟨?_, ih hn' hs.2⟩
      intro x hx
      rw [edgeInsert_mem rest e he hn'] at hx
      rcases hx with hx | rfl
      · exact hs.1 x hx
      · exact (edgeLt_iff _ _).1 h1
    · rw [if_neg h1]
      by_cases h2 : edgeEq f e = true
      · rw [if_pos h2, List.pairwise_cons]; exact hs
      · rw [if_neg h2, List.pairwise_cons, List.pairwise_cons]
        refine ⟨?_, hs⟩
        have hef : lexLt e f := by
          rw [edgeLt_iff] at h1
          rw [edgeEq_iff f e hf he] at h2
          obtain ⟨a, b⟩ := e; obtain ⟨c, d⟩ := f
          simp only [lexLt, Prod.mk.injEq] at *
          omega
        intro x hx
        rcases List.mem_cons.1 hx with rfl | hx
        · exact hef
        · have := hs.1 x hx
          unfold lexLt at *; omega

theorem edgesSorted_of_pairwise (es : List (Nat × Nat)) (hs : es.Pairwise lexLt) : edgesSorted es = true := by
  induction es with
  | nil => rfl
  | cons f rest ih =>
    cases rest with
    | nil => rfl
    | cons g rest =>
      rw [List.pairwise_cons] at hs
      unfold edgesSorted
      rw [ih hs.2, Bool.and_true]
      have h1 := hs.1 g (by simp)
      cases h : edgeLt g f
      · rfl
      · exfalso
        rw [edgeLt_iff] at h
        unfold lexLt at *; omega

theorem directedEdges_get {V : Type} (ts : List (V × V × V)) (k : Nat) :
    (directedEdges ts)[k]? = (do let a ← (corners ts)[k]?; let b ← (corners ts)[nextCorner k]?; some (a, b)) := by
  induction ts generalizing k with
  | nil => simp [directedEdges, corners]
  | cons t ts ih =>
    have h1 : directedEdges (t :: ts) = [(t.1, t.2.1), (t.2.1, t.2.2), (t.2.2, t.1)] ++ directedEdges ts := rfl
    have h2 : corners (t :: ts) = [t.1, t.2.1, t.2.2] ++ corners ts := rfl
    rw [h1, h2]
    by_cases hk : k < 3
    · rcases (show k = 0 ∨ k = 1 ∨ k = 2 by omega) with rfl | rfl | rfl <;> simp [nextCorner]
    · obtain ⟨j, rfl⟩ : ∃ j, k = j + 3 := ⟨k - 3, by omega⟩
      have hn : nextCorner (j + 3) = nextCorner j + 3 := by unfold nextCorner; omega
      rw [hn, List.getElem?_append_right (by simp), List.getElem?_append_right (by simp),
        List.getElem?_append_right (by simp)]
      simpa using ih j

/-- **C49** `calc_line_indices` succeeds and returns the flattened list of a strictly increasing (lexicographic) list of
pairs `(a, b)`; a pair is in the list exactly when `a ≤ b` and the points numbered `a` and `b` are joined by a side of
one of the triangles, in either direction. -/
theorem C49_line_indices {V : Type} [BEq V] [LawfulBEq V] (dbg : Bool) (M MU : Nat) (ts : List (V × V × V))
    (hM : 3 * ts.length < M) (m : HalfedgeMesh V) (hb : BuiltFrom dbg M ts m) (hU : m.points.length ≤ MU) :
    ∃ es : List (Nat × Nat), calcLineIndices dbg MU m = .ok (es.flatMap fun e => [e.1, e.2]) ∧ es.Pairwise lexLt ∧
      ∀ a b, (a, b) ∈ es ↔ a ≤ b ∧ ∃ p q, m.points[a]? = some p ∧ m.points[b]? = some q ∧
        ((p, q) ∈ directedEdges ts ∨ (q, p) ∈ directedEdges ts) := by
  obtain ⟨o, rfl⟩ := hb.eq hM
  have hl : (weld (corners ts)).2.length = 3 * ts.length := by rw [weld_length, corners_length]
  have hw := weld_welded (corners ts)
  set pts := (weld (corners ts)).1 with hpts
  set as := (weld (corners ts)).2 with has
  have hU' : pts.length ≤ MU := hU
  -- the edge of half-edge k
  let ed : Nat → Nat × Nat := fun k => (min (as.getD k 0) (as.getD (nextCorner k) 0), max (as.getD k 0) (as.getD (nextCorner k) 0))
  have hed : ∀ k, (ed k).1 ≤ (ed k).2 := fun k => by simp only [ed]; omega
  have hcreate : ∀ k < as.length, edgeCreate dbg MU (heOfO o as k).vertex (heOfO o as (nextCorner k)).vertex = .ok (ed k) := by
    intro k hk
    have h1 := getD_lt pts as hw hk
    have h2 := getD_lt pts as hw (show nextCorner k < as.length by rw [hl] at hk ⊢; exact nextCorner_lt hk)
    rw [show (heOfO o as k).vertex = as.getD k 0 from rfl,
      show (heOfO o as (nextCorner k)).vertex = as.getD (nextCorner k) 0 from rfl]
    unfold edgeCreate
    rw [decide_eq_true (by omega), decide_eq_true (by omega), geoAssert_true, ok_bind, ok_bind,
      Nat.mod_eq_of_lt (by omega), Nat.mod_eq_of_lt (by omega)]
    dsimp only
    congr 1
    show _ = (min (as.getD k 0) (as.getD (nextCorner k) 0), max (as.getD k 0) (as.getD (nextCorner k) 0))
    split
    · rw [min_eq_right (by omega), max_eq_left (by omega)]
    · rw [min_eq_left (by omega), max_eq_right (by omega)]
  have key : ∀ j ≤ as.length, ∃ es : List (Nat × Nat),
      ((List.range j).map (heOfO o as)).foldlM (fun edges h => do
        let n ← (meshOfO o pts as).heNext h
        let e ← edgeCreate dbg MU h.vertex n.vertex
        let edges' := edgeInsert edges e
        let _ ← geoAssert dbg (edgesSorted edges')
        .ok edges') [] = (.ok es : Res (List (Nat × Nat))) ∧
      es.Pairwise lexLt ∧ ∀ x, x ∈ es ↔ ∃ k < j, x = ed k := by
    intro j hj
    induction j with
    | zero => exact ⟨[], rfl, List.Pairwise.nil, by simp⟩
    | succ j ih =>
      obtain ⟨es, h1, h2, h3⟩ := ih (by omega)
      have hn : ∀ f ∈ es, f.1 ≤ f.2 := by
        intro f hf
        obtain ⟨k, _, rfl⟩ := (h3 f).1 hf
        exact hed k
      have hs := edgeInsert_sorted es (ed j) (hed j) hn h2
      refine ⟨edgeInsert es (ed j), ?_, hs, ?_⟩
      · rw [List.range_succ, List.map_append, List.foldlM_append, h1, ok_bind]
        simp only [List.map_cons, List.map_nil, List.foldlM_cons, List.foldlM_nil]
        rw [meshOfO_heNext _ _ _ hl (by omega), ok_bind, hcreate j (by omega), ok_bind,
          edgesSorted_of_pairwise _ hs, geoAssert_true, ok_bind]
        rfl
      · intro x
        rw [edgeInsert_mem es (ed j) (hed j) hn, h3]
        constructor
        · rintro (⟨k, hk, rfl⟩ | rfl)
          · exact ⟨k, by omega, rfl⟩
          · exact ⟨j, by omega, rfl⟩
        · rintro ⟨k, hk, rfl⟩
          rcases Nat.lt_succ_iff_lt_or_eq.1 hk with hk | rfl
          · exact .inl ⟨k, hk, rfl⟩
          · exact .inr rfl
  obtain ⟨es, h1, h2, h3⟩ := key as.length le_rfl
  refine ⟨es, ?_, h2, ?_⟩
  · unfold calcLineIndices
    rw [show (meshOfO o pts as).halfedges = (List.range as.length).map (heOfO o as) from rfl, h1, ok_bind]
  · have hcl : as.length = (corners ts).length := by rw [has, weld_length]
    have hpt : ∀ k < as.length, pts[as.getD k 0]? = (corners ts)[k]? := by
      intro k hk
      rw [List.getElem?_eq_getElem (l := corners ts) (by omega)]
      exact weld_get (corners ts) k (by omega)
    have hnd : pts.Nodup := by rw [hpts, weld_fst]; exact nodup_eraseDups _
    have hedge : ∀ k < as.length, ∃ p q, pts[as.getD k 0]? = some p ∧ pts[as.getD (nextCorner k) 0]? = some q ∧
        (directedEdges ts)[k]? = some (p, q) := by
      intro k hk
      have hk2 : nextCorner k < as.length := by rw [hl] at hk ⊢; exact nextCorner_lt hk
      rw [hpt k hk, hpt _ hk2, directedEdges_get, List.getElem?_eq_getElem (show k < (corners ts).length by omega),
        List.getElem?_eq_getElem (show nextCorner k < (corners ts).length by omega)]
      exact ⟨_, _, rfl, rfl, rfl⟩
    have hback : ∀ p q, (p, q) ∈ directedEdges ts → ∃ k < as.length, pts[as.getD k 0]? = some p ∧
        pts[as.getD (nextCorner k) 0]? = some q := by
      intro p q hpq
      obtain ⟨k, hk⟩ := List.mem_iff_getElem?.1 hpq
      have hk' : k < as.length := by
        by_contra hge
        rw [directedEdges_get, List.getElem?_eq_none (by omega)] at hk
        simp at hk
      obtain ⟨p', q', e1, e2, e3⟩ := hedge k hk'
      rw [hk, Option.some.injEq, Prod.mk.injEq] at e3
      rw [e3.1, e3.2]
      exact ⟨k, hk', e1, e2⟩
    have hinj : ∀ (i j : Nat) (p : V), pts[i]? = some p → pts[j]? = some p → i = j := by
      intro i j p hi hj
      exact (List.getElem?_inj (List.getElem?_eq_some_iff.1 hi).1 hnd).1 (hi.trans hj.symm)
    intro a b
    rw [h3]
    show _ ↔ a ≤ b ∧ ∃ p q, pts[a]? = some p ∧ pts[b]? = some q ∧ _
    constructor
    · rintro ⟨k, hk, he⟩
      obtain ⟨p, q, e1, e2, e3⟩ := hedge k hk
      have hm := List.mem_of_getElem? e3
      simp only [ed, Prod.mk.injEq] at he
      refine ⟨by omega, ?_⟩
      rcases Nat.le_total (as.getD k 0) (as.getD (nextCorner k) 0) with h | h
      · rw [min_eq_left h, max_eq_right h] at he
        exact ⟨p, q, by rw [he.1, e1], by rw [he.2, e2], .inl hm⟩
      · rw [min_eq_right h, max_eq_left h] at he
        exact ⟨q, p, by rw [he.1, e2], by rw [he.2, e1], .inr hm⟩
    · rintro ⟨hab, p, q, ha, hb', hm | hm⟩
      · obtain ⟨k, hk, e1, e2⟩ := hback p q hm
        have i1 := hinj _ _ _ ha e1
        have i2 := hinj _ _ _ hb' e2
        refine ⟨k, hk, ?_⟩
        simp only [ed, ← i1, ← i2, Prod.mk.injEq]
        omega
      · obtain ⟨k, hk, e1, e2⟩ := hback q p hm
        have i1 := hinj _ _ _ hb' e1
        have i2 := hinj _ _ _ ha e2
        refine ⟨k, hk, ?_⟩
        simp only [ed, ← i1, ← i2, Prod.mk.injEq]
        omega

/-- The two triangles 10-20-30, 10-30-40 have five edges; the shared one (point 0 to point 2) is listed. -/
example : ∃ m, ∃ es : List (Nat × Nat), BuiltFrom true 16 quad m ∧
    calcLineIndices true 8 m = .ok (es.flatMap fun e : Nat × Nat => [e.1, e.2]) ∧ (0, 2) ∈ es ∧ (2, 0) ∉ es ∧ (1, 3) ∉ es := by
  obtain ⟨m, hb, _, hp⟩ := quad_built
  obtain ⟨es, h1, _, h2⟩ := C49_line_indices true 16 8 quad (by decide) m hb (by rw [hp]; decide)
  refine ⟨m, es, hb, h1, (h2 0 2).2 ⟨by decide, 10, 30, by rw [hp]; rfl, by rw [hp]; rfl, by decide⟩,
    fun h => absurd ((h2 2 0).1 h).1 (by decide), fun h => ?_⟩
  obtain ⟨_, p, q, e1, e2, e3⟩ := (h2 1 3).1 h
  rw [hp] at e1 e2
  obtain rfl : (20 : Nat) = p := by simpa using e1
  obtain rfl : (40 : Nat) = q := by simpa using e2
  revert e3
  decide
end Verif
