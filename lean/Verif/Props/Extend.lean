import Mathlib.Data.List.Infix
import Verif.Props.MeshOpposite

set_option linter.unusedSectionVars false

/-
Property C141: adding triangles to a mesh that is already there.
-/
namespace Verif
open Spec

section
variable {V : Type}

/-- Adding one triangle to a mesh in closed form with arbitrary opposite links. -/
theorem addTriangle_stepO [BEq V] (dbg : Bool) (M : Nat) (o : Nat → Nat) (s : List V × List Nat) (hs : Welded s.1 s.2)
    (n : Nat) (hn : s.2.length = 3 * n) (hM : s.2.length + 3 < M) (ho : ∀ k, s.2.length ≤ k → o k = M - 1) (t : V × V × V) :
    addTriangle dbg M (meshOfO o s.1 s.2) t
      = .ok (meshOfO o ([t.1, t.2.1, t.2.2].foldl weldStep s).1 ([t.1, t.2.1, t.2.2].foldl weldStep s).2) := by
  obtain ⟨pts, as⟩ := s
  dsimp only at hs hn hM ho
  obtain ⟨a, b, c⟩ := t
  simp only [List.foldl_cons, List.foldl_nil]
  generalize hs0 : weldStep (pts, as) a = s0
  generalize hs1 : weldStep s0 b = s1
  generalize hs2 : weldStep s1 c = s2
  have w0 : Welded s0.1 s0.2 := hs0 ▸ Welded.step (s := (pts, as)) hs a
  have w1 : Welded s1.1 s1.2 := hs1 ▸ w0.step b
  have w2 : Welded s2.1 s2.2 := hs2 ▸ w1.step c
  have l0 : s0.2.length = as.length + 1 := hs0 ▸ weldStep_length (pts, as) a
  have l1 : s1.2.length = as.length + 2 := by have := hs1 ▸ weldStep_length s0 b; omega
  have l2 : s2.2.length = as.length + 3 := by have := hs2 ▸ weldStep_length s1 c; omega
  have p0 := weldStep_fst_length (pts, as) a
  have p1 := weldStep_fst_length s0 b
  have p2 := weldStep_fst_length s1 c
  rw [hs0] at p0; rw [hs1] at p1; rw [hs2] at p2
  have hle := hs.le
  set v0 := s0.2.getLastD 0 with hv0
  set v1 := s1.2.getLastD 0 with hv1
  set v2 := s2.2.getLastD 0 with hv2
  have a0 : s0.2 = as ++ [v0] := by have := weldStep_snd (pts, as) a; rw [hs0] at this; exact this
  have a1 : s1.2 = as ++ [v0] ++ [v1] := by have := weldStep_snd s0 b; rw [hs1] at this; rw [this, ← a0]
  have a2 : s2.2 = as ++ [v0] ++ [v1] ++ [v2] := by have := weldStep_snd s1 c; rw [hs2] at this; rw [this, ← a1]
  have b0 : v0 < s0.1.length := w0.lt _ (by rw [a0]; simp)
  have b1 : v1 < s1.1.length := w1.lt _ (by rw [a1]; simp)
  have b2 : v2 < s2.1.length := w2.lt _ (by rw [a2]; simp)
  have q0 : ∀ v ∈ as, v < s0.1.length := fun v hv => lt_of_lt_of_le (hs.lt v hv) p0.1
  have q1 : ∀ v ∈ as, v < s1.1.length := fun v hv => lt_of_lt_of_le (q0 v hv) p1.1
  dsimp only at p0
  unfold addTriangle meshOfO
  have h0 := createOrFind_step dbg M pts as as ((List.range as.length).map (heOfO o as)) (facetsOf (as.length / 3)) a hs.lt (by omega)
  have h1 := createOrFind_step dbg M s0.1 as s0.2 ((List.range as.length).map (heOfO o as)) (facetsOf (as.length / 3)) b q0 (by omega)
  have h2 := createOrFind_step dbg M s1.1 as s1.2 ((List.range as.length).map (heOfO o as)) (facetsOf (as.length / 3)) c q1 (by omega)
  rw [hs0] at h0
  rw [show (s0.1, s0.2) = s0 from rfl, hs1] at h1
  rw [show (s1.1, s1.2) = s1 from rfl, hs2] at h2
  rw [← hv0] at h0; rw [← hv1] at h1; rw [← hv2] at h2
  dsimp only
  rw [h0, ok_bind]; dsimp only
  rw [h1, ok_bind]; dsimp only
  rw [h2, ok_bind]; dsimp only
  rw [handleValid_of_lt (show v0 + 1 < M by omega), handleValid_of_lt (show v1 + 1 < M by omega),
    handleValid_of_lt (show v2 + 1 < M by omega), Bool.true_and, Bool.true_and, geoAssert_true, ok_bind]
  have hdiv : as.length / 3 = n := by omega
  have hfl : (facetsOf (as.length / 3)).length = n := by simp [facetsOf, hdiv]
  rw [addCorner_step dbg M s2.1 as ((List.range as.length).map (heOfO o as)) (facetsOf (as.length / 3)) _ true v0 (by omega) (by omega)
    (by simp) (by omega) (by omega), ok_bind, if_pos rfl, if_pos rfl]
  rw [addCorner_step dbg M s2.1 (as ++ [v0]) _ _ _ false v1 (by omega) (by omega)
    (by simp) (by simp; omega) (by simp [hfl]; omega), ok_bind, if_neg (by simp), if_neg (by simp)]
  rw [addCorner_step dbg M s2.1 (as ++ [v0] ++ [v1]) _ _ _ false v2 (by omega) (by omega)
    (by simp) (by simp; omega) (by simp [hfl]; omega), ok_bind, if_neg (by simp), if_neg (by simp)]
  dsimp only
  rw [hfl, handleValid_of_lt (show n + 1 < M by omega), geoAssert_true, ok_bind]
  rw [decide_eq_true (by simp), geoAssert_true, ok_bind]
  rw [List.append_assoc, List.append_assoc]
  simp only [List.cons_append, List.nil_append]
  rw [linkTriangle_step _ _ _ _ _ _ (by simp; omega), ok_bind, a2]
  have hlen : ((List.range as.length).map (heOfO o as)).length = as.length := by simp
  rw [hlen]
  congr 2
  · -- half-edges
    simp only [List.length_append, List.length_singleton]
    rw [List.range_succ, List.range_succ, List.range_succ]
    simp only [List.map_append, List.append_assoc, List.map_cons, List.map_nil, List.cons_append, List.nil_append]
    congr 1
    · apply List.map_congr_left
      intro k hk
      have hk' : k < as.length := by simpa using hk
      unfold heOfO
      congr 1
      simp [List.getD_eq_getElem?_getD, List.getElem?_append_left hk']
    · simp only [heOfO, nextCorner, prevCorner, List.cons.injEq, Halfedge.mk.injEq, and_true, true_and]
      refine ⟨⟨by omega, by simp [List.getD_eq_getElem?_getD], by omega, by omega, (ho _ (by omega)).symm⟩,
        ⟨by omega, ?_, by omega, by omega, (ho _ (by omega)).symm⟩, ⟨by omega, ?_, by omega, by omega, (ho _ (by omega)).symm⟩⟩
      · rw [List.getD_eq_getElem?_getD, List.getElem?_append_right (by omega)]; simp
      · rw [List.getD_eq_getElem?_getD, List.getElem?_append_right (by omega)]; simp
  · unfold facetsOf
    simp only [List.length_append, List.length_singleton]
    rw [show (as.length + 1 + 1 + 1) / 3 = n + 1 by omega, List.range_succ, hdiv]
    simp [hn]
/-- Adding triangles to a mesh in closed form. -/
theorem addMore_eq [BEq V] (dbg : Bool) (M : Nat) (ts us : List (V × V × V)) (o : Nat → Nat)
    (ho : ∀ k, 3 * ts.length ≤ k → o k = M - 1) (hM : 3 * (ts ++ us).length < M) :
    us.foldlM (addTriangle dbg M) (meshOfO o (weld (corners ts)).1 (weld (corners ts)).2)
      = .ok (meshOfO o (weld (corners (ts ++ us))).1 (weld (corners (ts ++ us))).2) := by
  induction us using List.reverseRecOn with
  | nil => simp [pure_eq_ok]
  | append_singleton us u ih =>
    simp only [List.length_append, List.length_singleton] at hM
    have ih := ih (by simp; omega)
    rw [List.foldlM_append, ih, ok_bind]
    simp only [List.foldlM_cons, List.foldlM_nil]
    have hl : (weld (corners (ts ++ us))).2.length = 3 * (ts ++ us).length := by rw [weld_length, corners_length]
    rw [addTriangle_stepO dbg M o _ (weld_welded _) _ hl (by rw [hl]; simp; omega)
      (fun k hk => ho k (by rw [hl] at hk; simp at hk; omega)) u, ok_bind, pure_eq_ok, ← List.append_assoc,
      corners_append (ts ++ us) [u], weld_append]
    rfl

theorem weldFold_prefix [BEq V] (ds : List V) (s : List V × List Nat) :
    s.1 <+: (ds.foldl weldStep s).1 ∧ s.2 <+: (ds.foldl weldStep s).2 := by
  induction ds generalizing s with
  | nil => exact ⟨List.prefix_rfl, List.prefix_rfl⟩
  | cons d ds ih =>
    obtain ⟨h1, h2⟩ := ih (weldStep s d)
    have h : s.1 <+: (weldStep s d).1 ∧ s.2 <+: (weldStep s d).2 := by
      unfold weldStep
      split
      · exact ⟨List.prefix_rfl, List.prefix_append _ _⟩
      · exact ⟨List.prefix_append _ _, List.prefix_append _ _⟩
    exact ⟨h.1.trans h1, h.2.trans h2⟩

theorem hesOf_prefix {as bs : List Nat} (h : as <+: bs) (i : Nat) : hesOf as i <+: hesOf bs i := by
  obtain ⟨cs, rfl⟩ := h
  induction cs using List.reverseRecOn with
  | nil => simp
  | append_singleton cs c ih =>
    refine ih.trans ?_
    rw [← List.append_assoc, hesOf_snoc]
    exact List.prefix_append _ _

theorem range_map_prefix {α : Type*} (f g : Nat → α) {m n : Nat} (h : m ≤ n) (he : ∀ k < m, f k = g k) :
    (List.range m).map f <+: (List.range n).map g := by
  have : (List.range m).map f = (List.range m).map g := List.map_congr_left fun k hk => he k (by simpa using hk)
  rw [this]
  obtain ⟨d, rfl⟩ := Nat.exists_eq_add_of_le h
  rw [List.range_add, List.map_append]
  exact List.prefix_append _ _

theorem allValid_true {α : Type} (f : α → Res Bool) (l : List α) (h : allValid f l = .ok true) : ∀ x ∈ l, f x = .ok true := by
  induction l with
  | nil => simp
  | cons a l ih =>
    unfold allValid at h
    cases ha : f a with
    | error e => rw [ha] at h; simp [error_bind] at h
    | ok b =>
      rw [ha, ok_bind] at h
      cases b with
      | false => simp at h
      | true =>
        intro x hx
        rcases List.mem_cons.1 hx with rfl | hx
        · exact ha
        · exact ih (by simpa using h) x hx

/-- A mesh with an invalid opposite link never passes `is_valid`. -/
theorem isValid_ne_of_opp (dbg : Bool) (M : Nat) (m : HalfedgeMesh V) (h : Halfedge) (hm : h ∈ m.halfedges) (ho : h.opp = M - 1) :
    m.isValid dbg M ≠ .ok true := by
  intro hv
  unfold HalfedgeMesh.isValid at hv
  have hh : assertedValid dbg (halfedgeValidImpl M m h) ≠ .ok true := by
    have : halfedgeValidImpl M m h = .ok false := by
      unfold halfedgeValidImpl
      simp [ho, handleValid, invalidHandle]
    rw [this]
    cases dbg <;> simp [assertedValid, geoAssert, ok_bind, error_bind]
  cases h1 : allValid (fun v => assertedValid dbg (.ok (vertexValidImpl M v))) m.vertices with
  | error e => rw [h1] at hv; simp [error_bind] at hv
  | ok b =>
    rw [h1, ok_bind] at hv
    cases b with
    | false => simp at hv
    | true =>
      simp only [Bool.not_true, Bool.false_eq_true, if_false] at hv
      cases h2 : allValid (fun h => assertedValid dbg (halfedgeValidImpl M m h)) m.halfedges with
      | error e => rw [h2] at hv; simp [error_bind] at hv
      | ok b =>
        cases b with
        | false => rw [h2, ok_bind] at hv; simp at hv
        | true => exact hh (allValid_true _ _ h2 h hm)

/-- **C141** Adding further triangles to a mesh built before – linked or not – succeeds in every build as long as the
handles suffice, and leaves everything that was there in place: points, half-edges (with all their links) and facets keep
their indices and contents, every vertex keeps its index and its half-edges, new ones coming after the old.  Each triangle
adds one facet and three half-edges. -/
theorem C141_extend [BEq V] (dbg : Bool) (M : Nat) (ts us : List (V × V × V)) (m : HalfedgeMesh V) (h : BuiltFrom dbg M ts m)
    (hM : 3 * (ts.length + us.length) < M) :
    ∃ m', us.foldlM (addTriangle dbg M) m = .ok m' ∧ BuiltFrom dbg M (ts ++ us) m' ∧
      m.points <+: m'.points ∧ m.halfedges <+: m'.halfedges ∧ m.facets <+: m'.facets ∧
      m'.facets.length = m.facets.length + us.length ∧ m'.halfedges.length = m.halfedges.length + 3 * us.length ∧
      ∀ (i : Nat) (v : MeshVertex), m.vertices[i]? = some v → ∃ v' : MeshVertex, m'.vertices[i]? = some v' ∧ v'.idx = v.idx ∧ v.hes <+: v'.hes := by
  obtain ⟨o, rfl⟩ := h.eq (by omega)
  have hl : (weld (corners ts)).2.length = 3 * ts.length := by rw [weld_length, corners_length]
  have hl' : (weld (corners (ts ++ us))).2.length = 3 * (ts.length + us.length) := by
    rw [weld_length, corners_length, List.length_append]
  set o' : Nat → Nat := fun k => if k < 3 * ts.length then o k else M - 1 with ho'
  have he : meshOfO o (weld (corners ts)).1 (weld (corners ts)).2 = meshOfO o' (weld (corners ts)).1 (weld (corners ts)).2 := by
    unfold meshOfO
    congr 1
    apply List.map_congr_left
    intro k hk
    rw [List.mem_range, hl] at hk
    simp [heOfO, ho', hk]
  have hp : (weld (corners ts)).1 <+: (weld (corners (ts ++ us))).1 ∧ (weld (corners ts)).2 <+: (weld (corners (ts ++ us))).2 := by
    rw [corners_append, weld_append]
    exact weldFold_prefix _ _
  rw [he]
  have hM' : 3 * (ts ++ us).length < M := by rw [List.length_append]; exact hM
  refine ⟨_, addMore_eq dbg M ts us o' (fun k hk => by simp [ho', Nat.not_lt.2 hk]) hM',
    ⟨_, addTriangles_eq dbg M (ts ++ us) hM', rfl, rfl, rfl, ?_⟩, hp.1, ?_, ?_, ?_, ?_, ?_⟩
  · simp [meshOf, meshOfO, hesListOf, Function.comp_def, heOf, heOfO]
  · refine range_map_prefix _ _ (by omega) fun k hk => ?_
    have : (weld (corners (ts ++ us))).2[k]? = (weld (corners ts)).2[k]? := by
      obtain ⟨x, hx⟩ := hp.2
      rw [← hx, List.getElem?_append_left hk]
    simp [heOfO, List.getD_eq_getElem?_getD, this]
  · exact range_map_prefix _ _ (by omega) fun k _ => rfl
  · simp [meshOfO, facetsOf, hl, hl']
  · simp only [meshOfO, List.length_map, List.length_range, hl, hl']; omega
  · intro i v hv
    simp only [meshOfO, vertsOf, List.getElem?_map, Option.map_eq_some_iff] at hv ⊢
    obtain ⟨j, hj, rfl⟩ := hv
    obtain ⟨hi, rfl⟩ := List.getElem?_eq_some_iff.1 hj
    have hi' : i < (weld (corners ts)).1.length := by simpa using hi
    have hle := hp.1.length_le
    refine ⟨⟨i, hesOf (weld (corners (ts ++ us))).2 i⟩, ⟨i, List.getElem?_range (by omega), rfl⟩, by simp, ?_⟩
    simpa using hesOf_prefix hp.2 i

/-- **C141** Until the links are computed again the extended mesh does not pass for a finished one: the new half-edges
carry the invalid opposite handle and `is_valid` does not return true. -/
theorem C141_unfinished [BEq V] (dbg dbg' : Bool) (M : Nat) (ts us : List (V × V × V)) (m m' : HalfedgeMesh V)
    (h : BuiltFrom dbg M ts m) (hM : 3 * (ts.length + us.length) < M) (hu : us ≠ [])
    (hm' : us.foldlM (addTriangle dbg M) m = .ok m') :
    (∀ k, m.halfedges.length ≤ k → ∀ e : Halfedge, m'.halfedges[k]? = some e → e.opp = invalidHandle M) ∧
    m'.isValid dbg' M ≠ .ok true := by
  obtain ⟨o, rfl⟩ := h.eq (by omega)
  have hl : (weld (corners ts)).2.length = 3 * ts.length := by rw [weld_length, corners_length]
  have hl' : (weld (corners (ts ++ us))).2.length = 3 * (ts.length + us.length) := by
    rw [weld_length, corners_length, List.length_append]
  set o' : Nat → Nat := fun k => if k < 3 * ts.length then o k else M - 1 with ho'
  have he : meshOfO o (weld (corners ts)).1 (weld (corners ts)).2 = meshOfO o' (weld (corners ts)).1 (weld (corners ts)).2 := by
    unfold meshOfO
    congr 1
    apply List.map_congr_left
    intro k hk
    rw [List.mem_range, hl] at hk
    simp [heOfO, ho', hk]
  have hM' : 3 * (ts ++ us).length < M := by rw [List.length_append]; exact hM
  rw [he, addMore_eq dbg M ts us o' (fun k hk => by simp [ho', Nat.not_lt.2 hk]) hM', Except.ok.injEq] at hm'
  subst hm'
  have key : ∀ k, 3 * ts.length ≤ k → ∀ e,
      (meshOfO o' (weld (corners (ts ++ us))).1 (weld (corners (ts ++ us))).2).halfedges[k]? = some e →
      e.opp = invalidHandle M := by
    intro k hk e hke
    simp only [meshOfO, List.getElem?_map, Option.map_eq_some_iff] at hke
    obtain ⟨j, hj, rfl⟩ := hke
    obtain ⟨_, rfl⟩ := List.getElem?_eq_some_iff.1 hj
    simp [heOfO, ho', invalidHandle, Nat.not_lt.2 hk]
  constructor
  · intro k hk e hke
    exact key k (by simpa [meshOfO, hl] using hk) e hke
  · have hpos : 0 < us.length := List.length_pos_iff.2 hu
    have hlt : 3 * ts.length < (meshOfO o' (weld (corners (ts ++ us))).1 (weld (corners (ts ++ us))).2).halfedges.length := by
      simp only [meshOfO, List.length_map, List.length_range, hl']; omega
    have := List.getElem?_eq_getElem hlt
    exact isValid_ne_of_opp dbg' M _ _ (List.getElem_mem hlt) (key _ le_rfl _ this)
end

section
variable {T : Type} [LinearOrder T] [Zero T] [Add T] [Sub T] [Mul T] [Neg T] [HasSqrt T] [StoredSound T 3]
variable [BEq (Vec T 3)] [LawfulBEq (Vec T 3)]

/-- The computed links do not depend on the links found. -/
theorem oppFinal_indep (ts : List (Vec T 3 × Vec T 3 × Vec T 3)) (o o' : Nat → Nat) {k : Nat} (hk : k < 3 * ts.length) :
    oppFinal ts o k = oppFinal ts o' k := by
  obtain ⟨h1, h2⟩ := oppFinal_spec ts o hk
  obtain ⟨g1, g2⟩ := oppFinal_spec ts o' hk
  by_cases h : firstSame ts k = k
  · obtain ⟨a1, a2, a3⟩ := h2 h
    obtain ⟨b1, b2, b3⟩ := g2 h
    rcases Nat.lt_trichotomy (oppFinal ts o k) (oppFinal ts o' k) with hlt | heq | hgt
    · exact absurd b2 (a3 _ b1 hlt)
    · exact heq
    · exact absurd a2 (b3 _ a1 hgt)
  · rw [h1 h, g1 h]

/-- Computing the links of any mesh built from triangles gives the mesh built from those triangles at once. -/
theorem relink_eq (dbg dbg' : Bool) (M w : Nat) (ts : List (Vec T 3 × Vec T 3 × Vec T 3)) (m : HalfedgeMesh (Vec T 3))
    (h : BuiltFrom dbg M ts m) (hM : 3 * ts.length < M) (hts : Apart (corners ts) := by exact apart_real _) :
    setOppositeHalfedges dbg' w m = buildMesh dbg' M w ts := by
  obtain ⟨o, rfl⟩ := h.eq hM
  rw [buildMesh_eq dbg' M w ts hM hts]
  refine (setOpposite_eq ts o dbg' w hts).trans ?_
  congr 1
  show meshOfO _ _ _ = meshOfO _ _ _
  unfold meshOfO
  congr 1
  apply List.map_congr_left
  intro k hk
  rw [List.mem_range, tsMesh_length] at hk
  unfold heOfO
  congr 1
  exact oppFinal_indep ts o _ hk

/-- **C141** Building in stages makes no difference: add some triangles, compute the links, add more, compute the links
again – the result is the very mesh (handle for handle) that adding all triangles before computing the links gives. -/
theorem C141_stages (dbg : Bool) (M w : Nat) (ts us : List (Vec T 3 × Vec T 3 × Vec T 3))
    (hM : 3 * (ts.length + us.length) < M) (m m' : HalfedgeMesh (Vec T 3)) (hm : buildMesh dbg M w ts = .ok m)
    (hm' : us.foldlM (addTriangle dbg M) m = .ok m')
    (h1 : Apart (corners ts) := by exact apart_real _) (h2 : Apart (corners (ts ++ us)) := by exact apart_real _) :
    setOppositeHalfedges dbg w m' = buildMesh dbg M w (ts ++ us) := by
  obtain ⟨m0, e0, hb⟩ := C48_build_succeeds dbg M w ts (by omega) h1
  rw [hm, Except.ok.injEq] at e0
  subst e0
  obtain ⟨m1, e1, hb1, _⟩ := C141_extend dbg M ts us m hb hM
  rw [hm', Except.ok.injEq] at e1
  subst e1
  exact relink_eq dbg dbg M w (ts ++ us) m' hb1 (by rw [List.length_append]; exact hM) h2

/-- **C141** Computing the links once more changes nothing. -/
theorem C141_idempotent (dbg : Bool) (M w : Nat) (ts : List (Vec T 3 × Vec T 3 × Vec T 3)) (hM : 3 * ts.length < M)
    (m : HalfedgeMesh (Vec T 3)) (hm : buildMesh dbg M w ts = .ok m) (hts : Apart (corners ts) := by exact apart_real _) :
    setOppositeHalfedges dbg w m = .ok m := by
  obtain ⟨m0, e0, hb⟩ := C48_build_succeeds dbg M w ts hM hts
  rw [hm, Except.ok.injEq] at e0
  subst e0
  rw [relink_eq dbg dbg M w ts m hb hM hts, hm]
end

section Examples

/-- Three of the four facets of a tetrahedron are added and linked, then the fourth. -/
example : ∃ m m', buildMesh true (2 ^ 64) 64 (tetra.take 3) = .ok m ∧ (tetra.drop 3).foldlM (addTriangle true (2 ^ 64)) m = .ok m' ∧
    m.points <+: m'.points ∧ m.halfedges <+: m'.halfedges ∧ m'.facets.length = 4 := by
  have hl : (tetra.take 3).length = 3 ∧ (tetra.drop 3).length = 1 := by simp [tetra, tetraIdx]
  obtain ⟨m, hm, hb⟩ := C48_build_succeeds true (2 ^ 64) 64 (tetra.take 3) (by rw [hl.1]; norm_num)
  obtain ⟨m', h1, h2, h3, h4, h5, h6, h7, h8⟩ :=
    C141_extend true (2 ^ 64) (tetra.take 3) (tetra.drop 3) m hb (by rw [hl.1, hl.2]; norm_num)
  refine ⟨m, m', hm, h1, h3, h4, ?_⟩
  obtain ⟨o, rfl⟩ := hb.eq (by rw [hl.1]; norm_num)
  rw [h6, hl.2]
  simp only [meshOfO, facetsOf, tsMesh_length, hl.1, List.length_map, List.length_range]

example : ∃ m m', buildMesh true (2 ^ 64) 64 (tetra.take 3) = .ok m ∧ (tetra.drop 3).foldlM (addTriangle true (2 ^ 64)) m = .ok m' ∧
    m'.isValid false (2 ^ 64) ≠ .ok true := by
  have hl : (tetra.take 3).length = 3 ∧ (tetra.drop 3).length = 1 := by simp [tetra, tetraIdx]
  obtain ⟨m, hm, hb⟩ := C48_build_succeeds true (2 ^ 64) 64 (tetra.take 3) (by rw [hl.1]; norm_num)
  obtain ⟨m', h1, _⟩ := C141_extend true (2 ^ 64) (tetra.take 3) (tetra.drop 3) m hb (by rw [hl.1, hl.2]; norm_num)
  exact ⟨m, m', hm, h1, (C141_unfinished true false (2 ^ 64) _ _ m m' hb (by rw [hl.1, hl.2]; norm_num)
    (List.ne_nil_of_length_pos (by rw [hl.2]; norm_num)) h1).2⟩

example : ∃ m m', buildMesh true (2 ^ 64) 64 (tetra.take 3) = .ok m ∧ (tetra.drop 3).foldlM (addTriangle true (2 ^ 64)) m = .ok m' ∧
    setOppositeHalfedges true 64 m' = buildMesh true (2 ^ 64) 64 tetra := by
  have hl : (tetra.take 3).length = 3 ∧ (tetra.drop 3).length = 1 := by simp [tetra, tetraIdx]
  obtain ⟨m, hm, hb⟩ := C48_build_succeeds true (2 ^ 64) 64 (tetra.take 3) (by rw [hl.1]; norm_num)
  obtain ⟨m', h1, _⟩ := C141_extend true (2 ^ 64) (tetra.take 3) (tetra.drop 3) m hb (by rw [hl.1, hl.2]; norm_num)
  refine ⟨m, m', hm, h1, ?_⟩
  have := C141_stages true (2 ^ 64) 64 (tetra.take 3) (tetra.drop 3) (by rw [hl.1, hl.2]; norm_num) m m' hm h1
  rwa [List.take_append_drop] at this

example : ∃ m, buildMesh true (2 ^ 64) 64 tetra = .ok m ∧ setOppositeHalfedges true 64 m = .ok m := by
  have hl : tetra.length = 4 := by simp [tetra, tetraIdx]
  obtain ⟨m, hm, _⟩ := C48_build_succeeds true (2 ^ 64) 64 tetra (by rw [hl]; norm_num)
  exact ⟨m, hm, C141_idempotent true (2 ^ 64) 64 tetra (by rw [hl]; norm_num) m hm⟩
end Examples
end Verif
