import Verif.Props.Mesh
import Verif.Props.Builder

set_option linter.unusedSectionVars false

/-
C151: release builds (no assertions) of a mesh with more elements than its index type can number.
-/
namespace Verif
open Spec

section
variable {V : Type}

/-- What adding triangles keeps in a release build, whatever the number of triangles: `ps` are the points looked up so far, `cs` the corners that
have a half-edge. -/
structure Grown [BEq V] (M : Nat) (ps cs : List V) (m : HalfedgeMesh V) : Prop where
  pts : m.points = (weld ps).1
  le : m.points.length ≤ M
  verts : m.vertices.length = m.points.length
  vidx : ∀ (i : Nat) v, m.vertices[i]? = some v → v.idx = i
  len : m.halfedges.length = cs.length
  he : ∀ (k : Nat) h, m.halfedges[k]? = some h → h.idx = k % M ∧ (∃ p c, m.points[h.vertex]? = some p ∧ cs[k]? = some c ∧ (p = c ∨ (p == c) = true)) ∧
    ∃ v, m.vertices[h.vertex]? = some v ∧ k % M ∈ v.hes
  hlt : ∀ v ∈ m.vertices, ∀ a ∈ v.hes, a < M
  nx : ∀ h ∈ m.halfedges, (h.next < m.halfedges.length ∨ h.next = M - 1) ∧ (h.prev < m.halfedges.length ∨ h.prev = M - 1)

theorem Grown.empty [BEq V] (M : Nat) : Grown M ([] : List V) [] HalfedgeMesh.empty :=
  ⟨rfl, Nat.zero_le _, rfl, by simp [HalfedgeMesh.empty], rfl, by simp [HalfedgeMesh.empty], by simp [HalfedgeMesh.empty],
    by simp [HalfedgeMesh.empty]⟩

theorem getElem?_snoc_eq {α : Type*} {l : List α} {k : Nat} {a b : α} (h : l[k]? = some a) : (l ++ [b])[k]? = some a := by
  have := (List.getElem?_eq_some_iff.1 h).1
  rw [List.getElem?_append_left this, h]

theorem create_release [BEq V] {M : Nat} {ps cs : List V} {m : HalfedgeMesh V} (h : Grown M ps cs m) (c : V) :
    ((weld (ps ++ [c])).1.length ≤ M → ∃ m' v, createOrFindVertex false M m c = .ok (m', v) ∧ Grown M (ps ++ [c]) cs m' ∧
      (∃ p, m'.points[v]? = some p ∧ (p = c ∨ (p == c) = true)) ∧ m'.halfedges = m.halfedges ∧ m'.facets = m.facets ∧ ∀ (i : Nat) p, m.points[i]? = some p → m'.points[i]? = some p) ∧
    (M < (weld (ps ++ [c])).1.length → createOrFindVertex false M m c = .error .diverges) := by
  have e : (weldStep (m.points, []) c).1 = (weld (ps ++ [c])).1 := by
    rw [weld_append, h.pts]
    exact weldStep_fst _ _ _ _
  unfold weldStep at e
  unfold createOrFindVertex pointsContains
  have hle := h.le
  cases hf : m.points.findIdx? (· == c) with
  | some i =>
    obtain ⟨hi, hc, -⟩ := List.findIdx?_eq_some_iff_getElem.1 hf
    rw [hf] at e
    simp only at e
    constructor
    · intro _
      refine ⟨m, i, ?_, ⟨e, h.le, h.verts, h.vidx, h.len, h.he, h.hlt, h.nx⟩, ?_, rfl, rfl, fun _ _ hp => hp⟩
      · simp only [show i < M by omega, if_true, ok_bind]
        rfl
      · exact ⟨_, List.getElem?_eq_getElem hi, .inr hc⟩
    · intro hlt
      rw [← e] at hlt; omega
  | none =>
    rw [hf] at e
    simp only at e
    constructor
    · intro hl
      rw [← e, List.length_append, List.length_singleton] at hl
      have hidx : pointsAddIndex M (m.points.length + 1) = m.points.length := by
        unfold pointsAddIndex toIdx
        rcases Nat.lt_or_ge (m.points.length + 1) M with hlt | hge
        · rw [Nat.mod_eq_of_lt hlt, show m.points.length + 1 + (M - 1) = m.points.length + M by omega, Nat.add_mod_right, Nat.mod_eq_of_lt (by omega)]
        · rw [show m.points.length + 1 = M by omega, Nat.mod_self, Nat.zero_add, Nat.mod_eq_of_lt (by omega)]; omega
      refine ⟨{ m with points := m.points ++ [c], vertices := m.vertices ++ [⟨toIdx M m.vertices.length, []⟩] }, m.points.length, ?_,
        ⟨e, ?_, ?_, ?_, h.len, ?_, ?_, h.nx⟩, ?_, rfl, rfl, fun i p hp => getElem?_snoc_eq hp⟩
      · simp only [show m.points.length < M by omega, if_true, ok_bind, List.length_append, List.length_singleton, hidx]
        rfl
      · simpa using hl
      · simp [h.verts]
      · intro i v hv
        simp only at hv
        rcases Nat.lt_or_ge i m.vertices.length with hi | hi
        · rw [List.getElem?_append_left hi] at hv
          exact h.vidx i v hv
        · rw [List.getElem?_append_right hi, List.getElem?_singleton] at hv
          split_ifs at hv with h0
          rw [← Option.some.inj hv]
          have hv' := h.verts
          show toIdx M m.vertices.length = i
          rw [toIdx_of_lt (by omega)]; omega
      · intro k x hx
        obtain ⟨h1, h2, v, hv, h3⟩ := h.he k x hx
        obtain ⟨p, d, hp, hd, hpd⟩ := h2
        exact ⟨h1, ⟨p, d, getElem?_snoc_eq hp, hd, hpd⟩, v, getElem?_snoc_eq hv, h3⟩
      · intro v hv a ha
        rcases List.mem_append.1 hv with hv | hv
        · exact h.hlt v hv a ha
        · rw [List.mem_singleton.1 hv] at ha; simp at ha
      · exact ⟨c, by simp, .inl rfl⟩
    · intro hlt
      rw [← e, List.length_append, List.length_singleton] at hlt
      simp only [show ¬ m.points.length < M by omega, if_false]
      rfl

theorem corner_release [BEq V] {M : Nat} (h0 : 0 < M) {ps cs : List V} {m : HalfedgeMesh V} (h : Grown M ps cs m) (fi : Nat) (first : Bool) {v : Nat} {c : V}
    (hv : ∃ p, m.points[v]? = some p ∧ (p = c ∨ (p == c) = true)) : ∃ m', addCorner false M (m, fi) first v = .ok (m', if first then toIdx M m.facets.length else fi) ∧
      Grown M ps (cs ++ [c]) m' ∧ m'.points = m.points ∧ m'.halfedges = m.halfedges ++ [⟨toIdx M m.halfedges.length, M - 1, v, M - 1, M - 1, M - 1⟩] ∧
      m'.facets = if first then m.facets ++ [⟨toIdx M m.halfedges.length⟩] else m.facets := by
  obtain ⟨p, hv, hpc⟩ := hv
  have hlt : v < m.vertices.length := by rw [h.verts]; exact (List.getElem?_eq_some_iff.1 hv).1
  refine ⟨⟨m.points, m.vertices.modify v (·.addHalfedgeIndex (toIdx M m.halfedges.length)),
    m.halfedges ++ [⟨toIdx M m.halfedges.length, M - 1, v, M - 1, M - 1, M - 1⟩],
    if first then m.facets ++ [⟨toIdx M m.halfedges.length⟩] else m.facets⟩, ?_, ?_, rfl, rfl, rfl⟩
  · unfold addCorner vecModify
    simp only [geoAssert_release, ok_bind, if_pos hlt]
    rfl
  have hmem : ∀ (x : MeshVertex) a, a ∈ (x.addHalfedgeIndex (toIdx M m.halfedges.length)).hes ↔ a ∈ x.hes ∨ a = toIdx M m.halfedges.length := by
    intro x a
    simp [MeshVertex.addHalfedgeIndex]
  have hget : ∀ i, (m.vertices.modify v (·.addHalfedgeIndex (toIdx M m.halfedges.length)))[i]? =
      if v = i then m.vertices[i]?.map (·.addHalfedgeIndex (toIdx M m.halfedges.length)) else m.vertices[i]? := by
    intro i
    rw [List.getElem?_modify]
    split_ifs <;> simp
  refine ⟨h.pts, h.le, by simpa using h.verts, ?_, by simp [h.len], ?_, ?_, ?_⟩
  · intro i x hx
    simp only [hget] at hx
    split_ifs at hx with hi
    · obtain ⟨y, hy, rfl⟩ := Option.map_eq_some_iff.1 hx
      exact h.vidx i y hy
    · exact h.vidx i x hx
  · intro k x hx
    simp only at hx ⊢
    rcases Nat.lt_or_ge k m.halfedges.length with hk | hk
    · rw [List.getElem?_append_left hk] at hx
      obtain ⟨h1, h2, y, hy, h3⟩ := h.he k x hx
      refine ⟨h1, ?_, ?_⟩
      · obtain ⟨p, d, hp, hd, hpd⟩ := h2
        exact ⟨p, d, hp, getElem?_snoc_eq hd, hpd⟩
      · simp only [hget, hy]
        split_ifs
        · exact ⟨_, rfl, (hmem _ _).2 (.inl h3)⟩
        · exact ⟨_, rfl, h3⟩
    · rw [List.getElem?_append_right hk, List.getElem?_singleton] at hx
      split_ifs at hx with h0
      have hk' : k = m.halfedges.length := by omega
      rw [← Option.some.inj hx]
      refine ⟨by rw [hk']; rfl, ?_, ?_⟩
      · exact ⟨p, c, hv, by rw [hk', h.len]; simp, hpc⟩
      · simp only [hget, if_true]
        rw [List.getElem?_eq_getElem hlt]
        exact ⟨_, rfl, (hmem _ _).2 (.inr (by rw [hk']; rfl))⟩
  · intro x hx a ha
    obtain ⟨i, hi⟩ := List.getElem?_of_mem hx
    simp only [hget] at hi
    split_ifs at hi
    · obtain ⟨y, hy, rfl⟩ := Option.map_eq_some_iff.1 hi
      rcases (hmem _ _).1 ha with ha | rfl
      · exact h.hlt y (List.mem_of_getElem? hy) a ha
      · exact Nat.mod_lt _ h0
    · exact h.hlt x (List.mem_of_getElem? hi) a ha
  · intro x hx
    simp only [List.mem_append, List.mem_singleton, List.length_append, List.length_singleton] at hx ⊢
    rcases hx with hx | rfl
    · obtain ⟨h1, h2⟩ := h.nx x hx
      exact ⟨h1.imp_left (by omega), h2.imp_left (by omega)⟩
    · exact ⟨.inr rfl, .inr rfl⟩

theorem link_rounds {M start last fi b : Nat} (hs : start < b) (hl : last < b) (hb : b ≤ M) (l : List Nat)
    (hln : ∀ i ∈ l, i < b ∧ start ≤ i ∧ (i ≠ last → i + 1 < b)) (hes : List Halfedge) (hlen : b ≤ hes.length) :
    ∃ hes', l.foldlM (linkOne M start last fi) hes = .ok hes' ∧ hes'.length = hes.length ∧
      ∀ (k : Nat) x, hes'[k]? = some x → ∃ y, hes[k]? = some y ∧ x.idx = y.idx ∧ x.vertex = y.vertex ∧
        (x.next = y.next ∨ x.next < b) ∧ (x.prev = y.prev ∨ x.prev < b) := by
  induction l generalizing hes with
  | nil => exact ⟨hes, rfl, rfl, fun k x hx => ⟨x, hx, rfl, rfl, .inl rfl, .inl rfl⟩⟩
  | cons i l ih =>
    obtain ⟨h1, h2, h3⟩ := hln i (by simp)
    rw [List.foldlM_cons]
    unfold linkOne vecModify
    rw [if_pos (by omega), ok_bind]
    obtain ⟨hes', e1, e2, e3⟩ := ih (fun j hj => hln j (by simp [hj])) (hes.modify i fun h =>
      { h with facet := fi, next := if i = last then start else toIdx M (i + 1), prev := if i = start then last else (i + (M - 1)) % M })
      (by simpa using hlen)
    refine ⟨hes', e1, by simpa using e2, fun k x hx => ?_⟩
    obtain ⟨y, hy, a1, a2, a3, a4⟩ := e3 k x hx
    rw [List.getElem?_modify] at hy
    obtain ⟨z, hz, rfl⟩ := Option.map_eq_some_iff.1 hy
    by_cases hik : i = k
    · rw [if_pos hik] at a1 a2 a3 a4
      refine ⟨z, hz, a1, a2, .inr ?_, .inr ?_⟩
      · rcases a3 with a3 | a3
        · rw [a3]
          simp only
          split_ifs with hil
          · exact hs
          · rw [toIdx_of_lt (by have := h3 hil; omega)]; exact h3 hil
        · exact a3
      · rcases a4 with a4 | a4
        · rw [a4]
          simp only
          split_ifs with his
          · exact hl
          · rw [show i + (M - 1) = i - 1 + M by omega, Nat.add_mod_right, Nat.mod_eq_of_lt (by omega)]; omega
        · exact a4
    · rw [if_neg hik] at a1 a2 a3 a4
      exact ⟨z, hz, a1, a2, a3, a4⟩

theorem link_release [BEq V] {M : Nat} (h0 : 0 < M) {ps cs : List V} {m : HalfedgeMesh V} (h : Grown M ps cs m) (fi : Nat) :
    ∃ hes, linkTriangle M fi m.halfedges = .ok hes ∧ Grown M ps cs { m with halfedges := hes } := by
  have key : ∃ hes, linkTriangle M fi m.halfedges = .ok hes ∧ hes.length = m.halfedges.length ∧
      ∀ (k : Nat) x, hes[k]? = some x → ∃ y, m.halfedges[k]? = some y ∧ x.idx = y.idx ∧ x.vertex = y.vertex ∧
        (x.next = y.next ∨ x.next < m.halfedges.length) ∧ (x.prev = y.prev ∨ x.prev < m.halfedges.length) := by
    unfold linkTriangle
    simp only
    have hb := Nat.mod_lt m.halfedges.length h0
    have hb' := Nat.mod_le m.halfedges.length M
    rcases Nat.lt_or_ge (toIdx M (m.halfedges.length - 3)) (toIdx M m.halfedges.length) with hlt | hge
    · have hlast : (toIdx M m.halfedges.length + (M - 1)) % M = toIdx M m.halfedges.length - 1 := by
        unfold toIdx at hlt ⊢
        rw [show m.halfedges.length % M + (M - 1) = m.halfedges.length % M - 1 + M by omega, Nat.add_mod_right, Nat.mod_eq_of_lt (by omega)]
      rw [hlast]
      obtain ⟨hes, e1, e2, e3⟩ := link_rounds (M := M) (fi := fi) hlt (by omega : toIdx M m.halfedges.length - 1 < toIdx M m.halfedges.length)
        (Nat.le_of_lt hb) (List.range' (toIdx M (m.halfedges.length - 3)) (toIdx M m.halfedges.length - toIdx M (m.halfedges.length - 3)))
        (fun i hi => by
          rw [List.mem_range'_1] at hi
          exact ⟨by omega, hi.1, fun _ => by omega⟩) m.halfedges hb'
      refine ⟨hes, e1, e2, fun k x hx => ?_⟩
      obtain ⟨y, hy, a1, a2, a3, a4⟩ := e3 k x hx
      have hbb : toIdx M m.halfedges.length ≤ m.halfedges.length := hb'
      exact ⟨y, hy, a1, a2, a3.imp_right (by omega), a4.imp_right (by omega)⟩
    · rw [Nat.sub_eq_zero_of_le hge]
      exact ⟨_, rfl, rfl, fun k x hx => ⟨x, hx, rfl, rfl, .inl rfl, .inl rfl⟩⟩
  obtain ⟨hes, e1, e2, e3⟩ := key
  refine ⟨hes, e1, h.pts, h.le, h.verts, h.vidx, e2.trans h.len, ?_, h.hlt, ?_⟩
  · intro k x hx
    obtain ⟨y, hy, a1, a2, -⟩ := e3 k x hx
    obtain ⟨b1, b2, b3⟩ := h.he k y hy
    simp only
    rw [a1, a2]
    exact ⟨b1, b2, b3⟩
  · intro x hx
    obtain ⟨k, hk⟩ := List.getElem?_of_mem hx
    obtain ⟨y, hy, -, -, a3, a4⟩ := e3 k x hk
    obtain ⟨b1, b2⟩ := h.nx y (List.mem_of_getElem? hy)
    simp only
    rw [e2]
    constructor
    · rcases a3 with a3 | a3
      · rw [a3]; exact b1
      · exact .inl a3
    · rcases a4 with a4 | a4
      · rw [a4]; exact b2
      · exact .inl a4

theorem weld_length_snoc [BEq V] (ps : List V) (c : V) : (weld ps).1.length ≤ (weld (ps ++ [c])).1.length := by
  rw [weld_append]
  exact (weldStep_fst_length (weld ps) c).1

/-- One more triangle in a release build. -/
theorem triangle_release [BEq V] {M : Nat} (h0 : 0 < M) {cs : List V} {m : HalfedgeMesh V} (h : Grown M cs cs m) (t : V × V × V) :
    ((weld (cs ++ [t.1, t.2.1, t.2.2])).1.length ≤ M → ∃ m' v0 v1 v2, addTriangle false M m t = .ok m' ∧
      Grown M (cs ++ [t.1, t.2.1, t.2.2]) (cs ++ [t.1, t.2.1, t.2.2]) m' ∧ m'.facets = m.facets ++ [⟨toIdx M m.halfedges.length⟩] ∧
      linkTriangle M (toIdx M m.facets.length) (m.halfedges ++ [⟨toIdx M m.halfedges.length, M - 1, v0, M - 1, M - 1, M - 1⟩,
        ⟨toIdx M (m.halfedges.length + 1), M - 1, v1, M - 1, M - 1, M - 1⟩, ⟨toIdx M (m.halfedges.length + 2), M - 1, v2, M - 1, M - 1, M - 1⟩])
          = .ok m'.halfedges) ∧
    (M < (weld (cs ++ [t.1, t.2.1, t.2.2])).1.length → addTriangle false M m t = .error .diverges) := by
  obtain ⟨a, b, c⟩ := t
  have ec : cs ++ [a, b, c] = cs ++ [a] ++ [b] ++ [c] := by simp
  simp only [ec]
  have l1 := weld_length_snoc (cs ++ [a]) b
  have l2 := weld_length_snoc (cs ++ [a] ++ [b]) c
  unfold addTriangle
  simp only [geoAssert_release, ok_bind]
  have c0 := create_release h a
  rcases Nat.lt_or_ge M (weld (cs ++ [a])).1.length with hM | hM
  · rw [c0.2 hM]
    exact ⟨fun hle => absurd hle (by omega), fun _ => rfl⟩
  obtain ⟨m0, v0, e0, g0, p0, q0, r0, -⟩ := c0.1 hM
  rw [e0, ok_bind]
  have c1 := create_release g0 b
  simp only
  rcases Nat.lt_or_ge M (weld (cs ++ [a] ++ [b])).1.length with hM | hM
  · rw [c1.2 hM]
    exact ⟨fun hle => absurd hle (by omega), fun _ => rfl⟩
  obtain ⟨m1, v1, e1, g1, p1, q1, r1, s1⟩ := c1.1 hM
  rw [e1, ok_bind]
  have c2 := create_release g1 c
  simp only
  rcases Nat.lt_or_ge M (weld (cs ++ [a] ++ [b] ++ [c])).1.length with hM | hM
  · rw [c2.2 hM]
    exact ⟨fun hle => absurd hle (by omega), fun _ => rfl⟩
  obtain ⟨m2, v2, e2, g2, p2, q2, r2, s2⟩ := c2.1 hM
  rw [e2, ok_bind]
  refine ⟨fun _ => ?_, fun hlt => absurd hM (by omega)⟩
  simp only
  obtain ⟨n0, f0, k0, t0, u0, w0⟩ := corner_release h0 g2 (invalidHandle M) true (p0.imp fun _ h => ⟨s2 _ _ (s1 _ _ h.1), h.2⟩)
  rw [f0, ok_bind]
  obtain ⟨n1, f1, k1, t1, u1, w1⟩ := corner_release h0 k0 (if true = true then toIdx M m2.facets.length else invalidHandle M) false
    (by rw [t0]; exact p1.imp fun _ h => ⟨s2 _ _ h.1, h.2⟩)
  rw [f1, ok_bind]
  obtain ⟨n2, f2, k2, t2, u2, w2⟩ := corner_release h0 k1 (if false = true then toIdx M n0.facets.length else if true = true then toIdx M m2.facets.length else invalidHandle M) false
    (by rw [t1, t0]; exact p2)
  rw [f2, ok_bind]
  obtain ⟨hes, d1, d2⟩ := link_release h0 k2 (toIdx M m2.facets.length)
  simp only [Bool.false_eq_true, if_false, if_true] at f2 ⊢
  rw [d1, ok_bind]
  refine ⟨_, v0, v1, v2, rfl, d2, ?_, ?_⟩
  · simp only
    rw [w2, w1, w0, q2, q1, q0, r2, r1, r0]; simp
  · simp only
    rw [← d1, u2, u1, u0, q2, q1, q0, r2, r1, r0]
    simp

theorem corners_snoc (ts : List (V × V × V)) (t : V × V × V) : corners (ts ++ [t]) = corners ts ++ [t.1, t.2.1, t.2.2] := by simp [corners]

/-- Any number of triangles in a release build. -/
theorem grown_all [BEq V] {M : Nat} (h0 : 0 < M) (ts : List (V × V × V)) :
    ((weld (corners ts)).1.length ≤ M → ∃ m, addTriangles false M ts = .ok m ∧ Grown M (corners ts) (corners ts) m ∧
      m.facets = (List.range ts.length).map fun i => ⟨toIdx M (3 * i)⟩) ∧
    (M < (weld (corners ts)).1.length → addTriangles false M ts = .error .diverges) := by
  induction ts using List.reverseRecOn with
  | nil => exact ⟨fun _ => ⟨_, rfl, Grown.empty M, rfl⟩, fun h => absurd h (by simp [corners, weld])⟩
  | append_singleton ts t ih =>
    rw [corners_snoc]
    unfold addTriangles at ih ⊢
    rw [List.foldlM_append]
    rcases Nat.lt_or_ge M (weld (corners ts)).1.length with hM | hM
    · rw [ih.2 hM]
      refine ⟨fun hle => ?_, fun _ => rfl⟩
      have l0 := weld_length_snoc (corners ts) t.1
      have l1 := weld_length_snoc (corners ts ++ [t.1]) t.2.1
      have l2 := weld_length_snoc (corners ts ++ [t.1] ++ [t.2.1]) t.2.2
      simp only [List.append_assoc, List.cons_append, List.nil_append] at l0 l1 l2
      omega
    · obtain ⟨m, e, g, hf⟩ := ih.1 hM
      rw [e, ok_bind]
      simp only [List.foldlM_cons, List.foldlM_nil]
      obtain ⟨k1, k2⟩ := triangle_release h0 g t
      constructor
      · intro hle
        obtain ⟨m', v0, v1, v2, e', g', hf', -⟩ := k1 hle
        refine ⟨m', by rw [e']; rfl, g', ?_⟩
        rw [hf', hf, g.len, corners_length, List.length_append, List.length_singleton, List.range_succ, List.map_append]
        rfl
      · intro hlt
        rw [k2 hlt]; rfl

theorem grown_of_ok [BEq V] {M : Nat} (h0 : 0 < M) {ts : List (V × V × V)} {m : HalfedgeMesh V} (h : addTriangles false M ts = .ok m) :
    Grown M (corners ts) (corners ts) m ∧ m.facets = (List.range ts.length).map fun i => ⟨toIdx M (3 * i)⟩ := by
  obtain ⟨h1, h2⟩ := grown_all h0 ts
  rcases Nat.lt_or_ge M (weld (corners ts)).1.length with hM | hM
  · rw [h2 hM] at h; cases h
  · obtain ⟨m', e, g⟩ := h1 hM
    rw [e] at h
    cases h
    exact g

/-- **C151** A release build that adds any triangles, with any comparison of points and any index type, accesses nothing outside of its arrays: it ends
with one facet and three half-edges per triangle, whose vertices, next and previous half-edges exist, or it never ends. -/
theorem C151_safe [BEq V] (M : Nat) (h0 : 0 < M) (ts : List (V × V × V)) :
    addTriangles false M ts = .error .diverges ∨ ∃ m, addTriangles false M ts = .ok m ∧ m.facets.length = ts.length ∧
      m.halfedges.length = 3 * ts.length ∧ m.vertices.length = m.points.length ∧
      (∀ h ∈ m.halfedges, h.vertex < m.vertices.length ∧ h.next < m.halfedges.length ∧ h.prev < m.halfedges.length) ∧
      (∀ f ∈ m.facets, f.he < m.halfedges.length) ∧ ∀ v ∈ m.vertices, v.idx < m.points.length ∧ ∀ a ∈ v.hes, a < m.halfedges.length := by
  rcases Nat.lt_or_ge (3 * ts.length) M with hfit | hfit
  · obtain ⟨m, e, h1, h2, h3, h4, h5, h6⟩ := C42_add_triangles false M ts hfit
    exact .inr ⟨m, e, h1, h2, h3, fun h hh => ⟨(h4 h hh).1, (h4 h hh).2.2⟩, h5, h6⟩
  obtain ⟨h1, h2⟩ := grown_all h0 ts
  rcases Nat.lt_or_ge M (weld (corners ts)).1.length with hM | hM
  · exact .inl (h2 hM)
  obtain ⟨m, e, g, hf⟩ := h1 hM
  have hlen : m.halfedges.length = 3 * ts.length := by rw [g.len, corners_length]
  refine .inr ⟨m, e, by rw [hf]; simp, hlen, g.verts, fun h hh => ?_, fun f hff => ?_, fun v hv => ⟨?_, fun a ha => ?_⟩⟩
  · obtain ⟨k, hk⟩ := List.getElem?_of_mem hh
    obtain ⟨-, -, v, hv, -⟩ := g.he k h hk
    obtain ⟨n1, n2⟩ := g.nx h hh
    exact ⟨(List.getElem?_eq_some_iff.1 hv).1, by omega, by omega⟩
  · rw [hf] at hff
    obtain ⟨i, -, rfl⟩ := List.mem_map.1 hff
    have := Nat.mod_lt (3 * i) h0
    show 3 * i % M < _
    omega
  · obtain ⟨i, hi⟩ := List.getElem?_of_mem hv
    rw [g.vidx i v hi, ← g.verts]
    exact (List.getElem?_eq_some_iff.1 hi).1
  · have := g.hlt v hv a ha
    omega

/-- **C151** It ends exactly if there are at most as many different corner points as index values. Then the points are the different corners, and the
half-edge number `k` starts at corner `k`, but carries the number `k` modulo the number of index values. -/
theorem C151_ends [BEq V] [LawfulBEq V] (M : Nat) (h0 : 0 < M) (ts : List (V × V × V)) :
    ((∃ m, addTriangles false M ts = .ok m) ↔ (corners ts).eraseDups.length ≤ M) ∧
      ∀ m, addTriangles false M ts = .ok m → m.points = (corners ts).eraseDups ∧
        ∀ k h, m.halfedges[k]? = some h → h.idx = k % M ∧ m.points[h.vertex]? = (corners ts)[k]? := by
  obtain ⟨h1, h2⟩ := grown_all h0 ts
  rw [weld_fst] at h1 h2
  refine ⟨⟨fun ⟨m, hm⟩ => ?_, fun hle => ?_⟩, fun m hm => ?_⟩
  · by_contra hc
    rw [h2 (by omega)] at hm; cases hm
  · obtain ⟨m, e, -⟩ := h1 hle
    exact ⟨m, e⟩
  · obtain ⟨g, -⟩ := grown_of_ok h0 hm
    refine ⟨by rw [g.pts, weld_fst], fun k h hk => ?_⟩
    obtain ⟨a1, ⟨p, c, hp, hc, hpc⟩, -⟩ := g.he k h hk
    refine ⟨a1, ?_⟩
    rw [hp, hc]
    rcases hpc with rfl | hpc
    · rfl
    · rw [eq_of_beq hpc]

theorem allValid_false {α : Type} {f : α → Bool} {l : List α} {x : α} (hx : x ∈ l) (hf : f x = false) :
    allValid (fun v => assertedValid false (.ok (f v))) l = .ok false := by
  induction l with
  | nil => cases hx
  | cons a l ih =>
    unfold allValid
    have ha : assertedValid false (.ok (f a)) = .ok (f a) := rfl
    rw [ha, ok_bind]
    cases hfa : f a with
    | false => rfl
    | true =>
      rcases List.mem_cons.1 hx with rfl | hx
      · rw [hf] at hfa; cases hfa
      · exact ih hx

theorem invalid_of_vertices {M : Nat} {m : HalfedgeMesh V} {v : MeshVertex} (hv : v ∈ m.vertices) (hM : M - 1 ∈ v.hes) :
    m.isValid false M = .ok false := by
  unfold HalfedgeMesh.isValid
  rw [allValid_false (f := vertexValidImpl M) hv]
  · rfl
  · unfold vertexValidImpl
    have : v.hes.all (handleValid M) = false := by
      rw [List.all_eq_false]
      exact ⟨M - 1, hM, by simp [handleValid, invalidHandle]⟩
    rw [this, Bool.and_false]

theorem invalid_vertex [BEq V] {M : Nat} (h0 : 0 < M) {ts : List (V × V × V)} (hfit : M ≤ 3 * ts.length) {m : HalfedgeMesh V}
    (h : addTriangles false M ts = .ok m) : ∃ v ∈ m.vertices, M - 1 ∈ v.hes := by
  obtain ⟨g, -⟩ := grown_of_ok h0 h
  have hlen : m.halfedges.length = 3 * ts.length := by rw [g.len, corners_length]
  obtain ⟨-, -, v, hv, hmem⟩ := g.he (M - 1) _ (List.getElem?_eq_getElem (by omega))
  rw [Nat.mod_eq_of_lt (by omega)] at hmem
  exact ⟨v, List.mem_of_getElem? hv, hmem⟩

/-- **C151** A mesh that does not fit its index type is not valid: a release build that ends gives a mesh that `is_valid` rejects. -/
theorem C151_invalid [BEq V] (M : Nat) (h0 : 0 < M) (ts : List (V × V × V)) (hfit : M ≤ 3 * ts.length) (m : HalfedgeMesh V)
    (h : addTriangles false M ts = .ok m) : m.isValid false M = .ok false := by
  obtain ⟨v, hv, hmem⟩ := invalid_vertex h0 hfit h
  exact invalid_of_vertices hv hmem

/-- The mesh after the first triangle that does not fit: the new half-edges are not linked. -/
theorem first_over [BEq V] {q : Nat} (hq : 1 ≤ q) {us : List (V × V × V)} (hl : us.length = q) {t : V × V × V} {m : HalfedgeMesh V}
    (h : addTriangles false (3 * q + 1) (us ++ [t]) = .ok m) :
    ∃ v0 v1 v2, m.halfedges = hesListOf (3 * q + 1) (weld (corners us)).2 ++ [⟨3 * q, 3 * q, v0, 3 * q, 3 * q, 3 * q⟩,
      ⟨0, 3 * q, v1, 3 * q, 3 * q, 3 * q⟩, ⟨1, 3 * q, v2, 3 * q, 3 * q, 3 * q⟩] := by
  have h0 : 0 < 3 * q + 1 := by omega
  have e := addTriangles_eq false (3 * q + 1) us (by omega)
  obtain ⟨g, -⟩ := grown_of_ok h0 e
  unfold addTriangles at h e
  rw [List.foldlM_append, e, ok_bind] at h
  simp only [List.foldlM_cons, List.foldlM_nil] at h
  obtain ⟨m1, h1, h⟩ := bind_ok h
  cases h
  obtain ⟨k1, k2⟩ := triangle_release h0 g t
  rcases Nat.lt_or_ge (3 * q + 1) (weld (corners us ++ [t.1, t.2.1, t.2.2])).1.length with hM | hM
  · rw [k2 hM] at h1; cases h1
  obtain ⟨m2, v0, v1, v2, e2, -, -, hlink⟩ := k1 hM
  rw [e2] at h1
  cases h1
  have hlen : (meshOf (3 * q + 1) (weld (corners us)).1 (weld (corners us)).2).halfedges.length = 3 * q := by rw [g.len, corners_length, hl]
  refine ⟨v0, v1, v2, ?_⟩
  rw [hlen, toIdx_of_lt (show 3 * q < 3 * q + 1 by omega), show toIdx (3 * q + 1) (3 * q + 1) = 0 from Nat.mod_self _,
    show toIdx (3 * q + 1) (3 * q + 2) = 1 by unfold toIdx; rw [show 3 * q + 2 = 1 + (3 * q + 1) by omega, Nat.add_mod_right, Nat.mod_eq_of_lt (by omega)],
    show 3 * q + 1 - 1 = 3 * q by omega] at hlink
  unfold linkTriangle at hlink
  simp only [List.length_append, List.length_cons, List.length_nil, hlen] at hlink
  rw [show toIdx (3 * q + 1) (3 * q + (0 + 1 + 1 + 1)) = 2 by
      unfold toIdx; rw [show 3 * q + (0 + 1 + 1 + 1) = 2 + (3 * q + 1) by omega, Nat.add_mod_right, Nat.mod_eq_of_lt (by omega)],
    show 3 * q + (0 + 1 + 1 + 1) - 3 = 3 * q by omega, toIdx_of_lt (show 3 * q < 3 * q + 1 by omega), show 2 - 3 * q = 0 by omega] at hlink
  exact (Except.ok.inj hlink).symm

theorem foldlM_outOfRange {α β : Type} {f : List β → α → Res (List β)} (hf : ∀ r x, f r x = .error .outOfRange ∨ ∃ r', f r x = .ok r') {l : List α} {x : α}
    (hx : x ∈ l) (hfx : ∀ r, f r x = .error .outOfRange) (r : List β) : l.foldlM f r = .error .outOfRange := by
  induction l generalizing r with
  | nil => cases hx
  | cons a l ih =>
    rw [List.foldlM_cons]
    rcases List.mem_cons.1 hx with rfl | hx
    · rw [hfx]; rfl
    · rcases hf r a with h | ⟨r', h⟩
      · rw [h]; rfl
      · rw [h, ok_bind]; exact ih hx _

/-- **C151** That the mesh is usable is false: if the index type has `3 q + 1` values (as all with 8, 16, 32 or 64 bits), then whatever `q + 1` triangles are
added, the last facet of the mesh has two half-edges, which are the same one, and there is a vertex for which `calc_vertex_facets` reads outside
of the facets. -/
theorem C151_counterexample [BEq V] (q : Nat) (hq : 1 ≤ q) (ts : List (V × V × V)) (hl : ts.length = q + 1) (m : HalfedgeMesh V)
    (h : addTriangles false (3 * q + 1) ts = .ok m) :
    (∃ f e, vecGet m.facets q = .ok f ∧ calcHalfedges m f = .ok [e, e]) ∧ ∃ v ∈ m.vertices, calcVertexFacets m v = .error .outOfRange := by
  have h0 : 0 < 3 * q + 1 := by omega
  obtain ⟨g, hfac⟩ := grown_of_ok h0 h
  have hlen : m.halfedges.length = 3 * q + 3 := by rw [g.len, corners_length, hl]; ring
  obtain ⟨us, t, rfl⟩ : ∃ us t, ts = us ++ [t] := by
    rcases List.eq_nil_or_concat ts with rfl | ⟨us, t, rfl⟩
    · simp at hl
    · exact ⟨us, t, List.concat_eq_append⟩
  simp only [List.length_append, List.length_singleton, Nat.add_right_cancel_iff] at hl
  obtain ⟨v0, v1, v2, hes⟩ := first_over hq hl h
  have hbase : (hesListOf (3 * q + 1) (weld (corners us)).2).length = 3 * q := by simp [hesListOf, weld_length, corners_length, hl]
  set A : Halfedge := ⟨3 * q, 3 * q, v0, 3 * q, 3 * q, 3 * q⟩ with hA
  have hgA : m.halfedges[3 * q]? = some A := by rw [hes, List.getElem?_append_right (by omega), hbase]; simp
  have gA : vecGet m.halfedges (3 * q) = .ok A := vecGet_of_getElem? hgA
  have hfl : m.facets.length = q + 1 := by rw [hfac]; simp [hl]
  constructor
  · refine ⟨⟨3 * q⟩, A, ?_, ?_⟩
    · apply vecGet_of_getElem?
      rw [hfac, List.getElem?_map, List.getElem?_range (by simp [hl])]
      simp [toIdx_of_lt (show 3 * q < 3 * q + 1 by omega)]
    · unfold calcHalfedges HalfedgeMesh.facetHalfedge HalfedgeMesh.heNext
      simp only [gA, ok_bind]
      rw [show A.next = 3 * q from rfl, gA, ok_bind]
      unfold calcHalfedgesLoop HalfedgeMesh.facetHalfedge HalfedgeMesh.heNext
      simp only [gA, ok_bind]
      rw [show A.next = 3 * q from rfl, gA, ok_bind]
      simp
  · obtain ⟨-, -, v, hv, hmem⟩ := g.he (3 * q) A hgA
    rw [Nat.mod_eq_of_lt (by omega)] at hmem
    have hvm := List.mem_of_getElem? hv
    refine ⟨v, hvm, ?_⟩
    obtain ⟨l, hl1, hl2⟩ : ∃ l, vertexCalcHalfedges m v = .ok l ∧ A ∈ l := by
      unfold vertexCalcHalfedges
      have gen : ∀ (hs : List Nat) (r : List Halfedge), (∀ a ∈ hs, a < m.halfedges.length) → ∃ l, hs.foldlM (fun r h => do
          let he ← vecGet m.halfedges h
          .ok (r ++ [he])) r = .ok l ∧ (∀ x ∈ r, x ∈ l) ∧ (3 * q ∈ hs → A ∈ l) := by
        intro hs
        induction hs with
        | nil => intro r _; exact ⟨r, rfl, fun _ hx => hx, by simp⟩
        | cons a hs ih =>
          intro r hr
          have ha := hr a (by simp)
          rw [List.foldlM_cons, vecGet_of_getElem? (List.getElem?_eq_getElem ha), ok_bind, ok_bind]
          obtain ⟨l, e1, e2, e3⟩ := ih (r ++ [m.halfedges[a]]) fun b hb => hr b (by simp [hb])
          refine ⟨l, e1, fun x hx => e2 x (by simp [hx]), fun hm => ?_⟩
          rcases List.mem_cons.1 hm with rfl | hm
          · apply e2
            rw [List.getElem?_eq_getElem ha] at hgA
            simp [Option.some.inj hgA]
          · exact e3 hm
      obtain ⟨l, e1, -, e3⟩ := gen v.hes [] fun a ha => by have := g.hlt v hvm a ha; omega
      exact ⟨l, e1, e3 hmem⟩
    unfold calcVertexFacets
    rw [hl1, ok_bind]
    refine foldlM_outOfRange (fun r x => ?_) hl2 (fun r => ?_) []
    · unfold HalfedgeMesh.heFacet vecGet
      cases m.facets[x.facet]? with
      | none => exact .inl rfl
      | some f => exact .inr ⟨_, rfl⟩
    · unfold HalfedgeMesh.heFacet vecGet
      rw [List.getElem?_eq_none (by rw [hfl, hA]; show q + 1 ≤ 3 * q; omega)]
      rfl

/-- **C151** One more triangle damages the first one: `calc_halfedges` of the first facet never ends, whatever `q + 2` triangles are added. -/
theorem C151_loop_counterexample [BEq V] (q : Nat) (hq : 2 ≤ q) (ts : List (V × V × V)) (hl : ts.length = q + 2) (m : HalfedgeMesh V)
    (h : addTriangles false (3 * q + 1) ts = .ok m) : ∃ f, vecGet m.facets 0 = .ok f ∧ calcHalfedges m f = .error .diverges := by
  have h0 : 0 < 3 * q + 1 := by omega
  obtain ⟨g, hfac⟩ := grown_of_ok h0 h
  obtain ⟨us, t, rfl⟩ : ∃ us t, ts = us ++ [t] := by
    rcases List.eq_nil_or_concat ts with rfl | ⟨us, t, rfl⟩
    · simp at hl
    · exact ⟨us, t, List.concat_eq_append⟩
  simp only [List.length_append, List.length_singleton] at hl
  obtain ⟨us', t', rfl⟩ : ∃ us' t', us = us' ++ [t'] := by
    rcases List.eq_nil_or_concat us with rfl | ⟨us', t', rfl⟩
    · simp at hl
    · exact ⟨us', t', List.concat_eq_append⟩
  simp only [List.length_append, List.length_singleton] at hl
  unfold addTriangles at h
  rw [List.foldlM_append] at h
  obtain ⟨m1, h1, h⟩ := bind_ok h
  obtain ⟨v0, v1, v2, hes1⟩ := first_over (by omega) (by omega : us'.length = q) h1
  obtain ⟨g1, -⟩ := grown_of_ok h0 h1
  simp only [List.foldlM_cons, List.foldlM_nil] at h
  obtain ⟨m2, h2, h⟩ := bind_ok h
  cases h
  obtain ⟨k1, k2⟩ := triangle_release h0 g1 t
  rcases Nat.lt_or_ge (3 * q + 1) (weld (corners (us' ++ [t']) ++ [t.1, t.2.1, t.2.2])).1.length with hM | hM
  · rw [k2 hM] at h2; cases h2
  obtain ⟨m3, w0, w1, w2, e2, -, -, hlink⟩ := k1 hM
  rw [e2] at h2
  cases h2
  have hbase : (hesListOf (3 * q + 1) (weld (corners us')).2).length = 3 * q := by
    simp only [hesListOf, weld_length, corners_length, List.length_map, List.length_range]; omega
  have hl1 : m1.halfedges.length = 3 * q + 3 := by rw [hes1]; simp [hbase]
  have base : ∀ k, k < 3 * q → m1.halfedges[k]? = some (heOf (3 * q + 1) (weld (corners us')).2 k) := by
    intro k hk
    rw [hes1, List.getElem?_append_left (by omega)]
    unfold hesListOf
    rw [List.getElem?_map, List.getElem?_range (by rw [weld_length, corners_length]; omega)]
    rfl
  have mod : ∀ a, a < 3 * q + 1 → toIdx (3 * q + 1) (3 * q + 1 + a) = a := fun a ha => by
    unfold toIdx
    rw [Nat.add_mod_left, Nat.mod_eq_of_lt ha]
  generalize hB : (⟨toIdx (3 * q + 1) m1.halfedges.length, 3 * q + 1 - 1, w0, 3 * q + 1 - 1, 3 * q + 1 - 1, 3 * q + 1 - 1⟩ : Halfedge) = B at hlink
  generalize hC : (⟨toIdx (3 * q + 1) (m1.halfedges.length + 1), 3 * q + 1 - 1, w1, 3 * q + 1 - 1, 3 * q + 1 - 1, 3 * q + 1 - 1⟩ : Halfedge) = C at hlink
  generalize hD : (⟨toIdx (3 * q + 1) (m1.halfedges.length + 2), 3 * q + 1 - 1, w2, 3 * q + 1 - 1, 3 * q + 1 - 1, 3 * q + 1 - 1⟩ : Halfedge) = D at hlink
  generalize hH : m1.halfedges ++ [B, C, D] = H at hlink
  have hHl : H.length = 3 * q + 6 := by rw [← hH]; simp [hl1]
  have hHk : ∀ k, k < 3 * q → H[k]? = some (heOf (3 * q + 1) (weld (corners us')).2 k) := by
    intro k hk
    rw [← hH, List.getElem?_append_left (by omega)]
    exact base k hk
  unfold linkTriangle at hlink
  simp only [hHl] at hlink
  rw [show 3 * q + 6 - 3 = 3 * q + 1 + 2 by omega, show 3 * q + 6 = 3 * q + 1 + 5 by omega, mod 2 (by omega), mod 5 (by omega),
    show 5 + (3 * q + 1 - 1) = 3 * q + 1 + 4 by omega, Nat.add_mod_left, Nat.mod_eq_of_lt (show 4 < 3 * q + 1 by omega)] at hlink
  simp only [show 5 - 2 = 3 from rfl, List.range', List.foldlM_cons, List.foldlM_nil, linkOne, vecModify, Nat.reduceAdd] at hlink
  rw [if_pos (by omega), ok_bind, if_pos (by simp; omega), ok_bind, if_pos (by simp; omega), ok_bind] at hlink
  have hm := (Except.ok.inj hlink).symm
  have t3 : toIdx (3 * q + 1) 3 = 3 := toIdx_of_lt (by omega)
  have t4 : toIdx (3 * q + 1) 4 = 4 := toIdx_of_lt (by omega)
  have n0 : ∃ x, vecGet m.halfedges 0 = .ok x ∧ x.idx = 0 ∧ x.next = 1 := by
    refine ⟨_, vecGet_of_getElem? (by rw [hm]; simp only [List.getElem?_modify, hHk 0 (by omega)]; rfl), rfl, rfl⟩
  have n1 : ∃ x, vecGet m.halfedges 1 = .ok x ∧ x.idx = 1 ∧ x.next = 2 := by
    refine ⟨_, vecGet_of_getElem? (by rw [hm]; simp only [List.getElem?_modify, hHk 1 (by omega)]; rfl), rfl, rfl⟩
  have n2 : ∃ x, vecGet m.halfedges 2 = .ok x ∧ x.idx = 2 ∧ x.next = 3 := by
    refine ⟨_, vecGet_of_getElem? (by rw [hm]; simp only [List.getElem?_modify, hHk 2 (by omega)]; rfl), rfl, t3⟩
  have n3 : ∃ x, vecGet m.halfedges 3 = .ok x ∧ x.idx = 3 ∧ x.next = 4 := by
    refine ⟨_, vecGet_of_getElem? (by rw [hm]; simp only [List.getElem?_modify, hHk 3 (by omega)]; rfl), rfl, t4⟩
  have n4 : ∃ x, vecGet m.halfedges 4 = .ok x ∧ x.idx = 4 ∧ x.next = 2 := by
    refine ⟨_, vecGet_of_getElem? (by rw [hm]; simp only [List.getElem?_modify, hHk 4 (by omega)]; rfl), rfl, rfl⟩
  obtain ⟨x0, a0, b0, c0⟩ := n0
  obtain ⟨x1, a1, b1, c1⟩ := n1
  obtain ⟨x2, a2, b2, c2⟩ := n2
  obtain ⟨x3, a3, b3, c3⟩ := n3
  obtain ⟨x4, a4, b4, c4⟩ := n4
  have loop : ∀ fuel (he : Halfedge) r, (he.next = 2 ∨ he.next = 3 ∨ he.next = 4) → calcHalfedgesLoop m ⟨0⟩ fuel he r = .error .diverges := by
    intro fuel
    induction fuel with
    | zero => intro he r _; rfl
    | succ fuel ih =>
      intro he r hn
      unfold calcHalfedgesLoop HalfedgeMesh.facetHalfedge HalfedgeMesh.heNext
      simp only [a0, ok_bind]
      rcases hn with hn | hn | hn
      · rw [hn, a2, ok_bind, b0, b2, if_pos (by decide)]
        exact ih _ _ (by omega)
      · rw [hn, a3, ok_bind, b0, b3, if_pos (by decide)]
        exact ih _ _ (by omega)
      · rw [hn, a4, ok_bind, b0, b4, if_pos (by decide)]
        exact ih _ _ (by omega)
  refine ⟨⟨0⟩, ?_, ?_⟩
  · apply vecGet_of_getElem?
    rw [hfac, List.getElem?_map, List.getElem?_range (by simp)]
    simp [toIdx]
  · unfold calcHalfedges HalfedgeMesh.facetHalfedge HalfedgeMesh.heNext
    simp only [a0, ok_bind]
    rw [c0, a1, ok_bind]
    exact loop _ _ _ (by omega)

end

section
variable {T : Type} [Zero T] [Add T] [Sub T] [Mul T] [Neg T] [HasSqrt T] [LT T] [DecidableLT T] [BEq (Vec T 3)]

theorem setRound_vertices {w : Nat} {dbg : Bool} {kd : KdTree T 3 (List Nat) w} {m m' : HalfedgeMesh (Vec T 3)} {k : Nat}
    (h : oppositeSetRound dbg kd m k = .ok m') : m'.vertices = m.vertices ∧ m'.facets = m.facets := by
  unfold oppositeSetRound at h
  obtain ⟨he, -, h⟩ := bind_ok h
  obtain ⟨a, -, h⟩ := bind_ok h
  obtain ⟨b, -, h⟩ := bind_ok h
  obtain ⟨c, -, h⟩ := bind_ok h
  obtain ⟨d, -, h⟩ := bind_ok h
  cases d with
  | none =>
    obtain ⟨_, -, h⟩ := bind_ok h
    cases h; exact ⟨rfl, rfl⟩
  | some j =>
    obtain ⟨_, -, h⟩ := bind_ok h
    cases h; exact ⟨rfl, rfl⟩

theorem setRounds_vertices {w : Nat} {dbg : Bool} {kd : KdTree T 3 (List Nat) w} (l : List Nat) {m m' : HalfedgeMesh (Vec T 3)}
    (h : l.foldlM (oppositeSetRound dbg kd) m = .ok m') : m'.vertices = m.vertices ∧ m'.facets = m.facets := by
  induction l generalizing m with
  | nil => cases h; exact ⟨rfl, rfl⟩
  | cons k l ih =>
    rw [List.foldlM_cons] at h
    obtain ⟨m1, h1, h⟩ := bind_ok h
    rw [(ih h).1, (ih h).2]
    exact setRound_vertices h1

theorem setOpposite_vertices {w : Nat} {dbg : Bool} {m m' : HalfedgeMesh (Vec T 3)} (h : setOppositeHalfedges dbg w m = .ok m') :
    m'.vertices = m.vertices ∧ m'.facets = m.facets := by
  unfold setOppositeHalfedges at h
  obtain ⟨kd, -, h⟩ := bind_ok h
  exact setRounds_vertices _ h

/-- **C151** The same for a mesh built from an index buffer, which is what all builders of solids do. -/
theorem C151_buffer [One T] [BEq (HMat T)] (M w : Nat) (h0 : 0 < M) (trafo : HMat T) (points : List (Vec T 3)) (idx : List Nat)
    (hfit : M ≤ 3 * (idx.length / 3)) (m : HalfedgeMesh (Vec T 3)) (h : buildTriangleHalfedgeMesh false M w trafo points idx = .ok m) :
    m.isValid false M = .ok false := by
  unfold buildTriangleHalfedgeMesh at h
  obtain ⟨_, -, h⟩ := bind_ok h
  obtain ⟨_, -, h⟩ := bind_ok h
  obtain ⟨m0, h1, h⟩ := bind_ok h
  have hr : builderRound false M trafo points idx = fun m k => roundTriangle trafo points idx k >>= addTriangle false M m := by
    funext m k; exact builderRound_eq ..
  rw [hr] at h1
  obtain ⟨ts, hl, hts⟩ := rounds_ok h1
  obtain ⟨v, hv, hmem⟩ := invalid_vertex h0 (by rw [hl]; exact hfit) hts
  exact invalid_of_vertices (by rw [(setOpposite_vertices h).1]; exact hv) hmem
end

section
variable {T : Type} [LinearOrder T] [Zero T] [Add T] [Sub T] [Mul T] [Neg T] [HasSqrt T] [StoredSound T 3]
variable [BEq (Vec T 3)] [LawfulBEq (Vec T 3)]

/-- The half-edges of `m` start at the corners `cs`, and the next half-edge of each exists. -/
structure CornerWalk (cs : List (Vec T 3)) (m : HalfedgeMesh (Vec T 3)) : Prop where
  len : m.halfedges.length = cs.length
  he : ∀ (k : Nat) h, m.halfedges[k]? = some h → h.next < m.halfedges.length ∧ ∃ c, cs[k]? = some c ∧ m.heVector h = .ok c

theorem walk_of_ok {M : Nat} (h0 : 0 < M) {ts : List (Vec T 3 × Vec T 3 × Vec T 3)} {m : HalfedgeMesh (Vec T 3)}
    (h : addTriangles false M ts = .ok m) : CornerWalk (corners ts) m := by
  obtain ⟨g, -⟩ := grown_of_ok h0 h
  refine ⟨g.len, fun k x hx => ⟨?_, ?_⟩⟩
  · rcases C151_safe M h0 ts with e | ⟨m', e, -, -, -, hh, -⟩
    · rw [e] at h; cases h
    · rw [e] at h
      cases h
      exact (hh x (List.mem_of_getElem? hx)).2.1
  · obtain ⟨-, ⟨p, c, hp, hc, hpc⟩, v, hv, -⟩ := g.he k x hx
    refine ⟨c, hc, ?_⟩
    unfold HalfedgeMesh.heVector HalfedgeMesh.heVertex HalfedgeMesh.vector
    rw [vecGet_of_getElem? hv, ok_bind, g.vidx _ v hv, vecGet_of_getElem? hp]
    rcases hpc with rfl | hpc
    · rfl
    · rw [eq_of_beq hpc]

theorem CornerWalk.next {cs : List (Vec T 3)} {m : HalfedgeMesh (Vec T 3)} (hw : CornerWalk cs m) {k : Nat} {h : Halfedge} (hk : m.halfedges[k]? = some h) :
    ∃ p, m.heNextVector h = .ok p := by
  obtain ⟨hn, -⟩ := hw.he k h hk
  obtain ⟨-, c, -, hc⟩ := hw.he h.next _ (List.getElem?_eq_getElem hn)
  refine ⟨c, ?_⟩
  unfold HalfedgeMesh.heVector at hc
  unfold HalfedgeMesh.heNextVector HalfedgeMesh.heNextVertex HalfedgeMesh.heNext
  rw [vecGet_of_getElem? (List.getElem?_eq_getElem hn), ok_bind]
  exact hc

theorem CornerWalk.modify {cs : List (Vec T 3)} {m : HalfedgeMesh (Vec T 3)} (hw : CornerWalk cs m) (k v : Nat) :
    CornerWalk cs { m with halfedges := m.halfedges.modify k ({ · with opp := v }) } := by
  refine ⟨by simpa using hw.len, fun i h hi => ?_⟩
  simp only at hi ⊢
  rw [List.getElem?_modify] at hi
  obtain ⟨x, hx, rfl⟩ := Option.map_eq_some_iff.1 hi
  obtain ⟨h1, c, h2, h3⟩ := hw.he i x hx
  rw [List.length_modify]
  by_cases hki : k = i
  · rw [if_pos hki]
    exact ⟨h1, c, h2, h3⟩
  · rw [if_neg hki]
    exact ⟨h1, c, h2, h3⟩

theorem walk_index (w : Nat) {cs : List (Vec T 3)} (ha : Apart cs) {m : HalfedgeMesh (Vec T 3)} (hw : CornerWalk cs m) : ∃ kd : KdTree T 3 (List Nat) w,
    (List.range m.halfedges.length).foldlM (oppositeIndexRound m) KdTree.empty = .ok kd ∧ IndexInv cs m.halfedges.length kd := by
  have key : ∀ j ≤ m.halfedges.length, ∃ kd : KdTree T 3 (List Nat) w,
      (List.range j).foldlM (oppositeIndexRound m) KdTree.empty = .ok kd ∧ IndexInv cs j kd := by
    intro j hj
    induction j with
    | zero => exact ⟨_, rfl, indexInv_empty _⟩
    | succ j ih =>
      obtain ⟨kd, h1, h2⟩ := ih (by omega)
      have hx := List.getElem?_eq_getElem (l := m.halfedges) (i := j) (by omega)
      obtain ⟨-, p, hp, hv⟩ := hw.he j _ hx
      obtain ⟨kd', h3, h4⟩ := indexInv_step cs j kd h2 p hp ha
      refine ⟨kd', ?_, h4⟩
      rw [List.range_succ, List.foldlM_append, h1, ok_bind]
      simp only [List.foldlM_cons, List.foldlM_nil]
      unfold oppositeIndexRound
      rw [vecGet_of_getElem? hx, ok_bind, hv, ok_bind, h3, ok_bind]
      rfl
  exact key _ le_rfl

theorem walk_find {cs : List (Vec T 3)} {m : HalfedgeMesh (Vec T 3)} (hw : CornerWalk cs m) (start : Vec T 3) (l : List Nat)
    (hl : ∀ j ∈ l, j < m.halfedges.length) : ∃ r, findOpposite m start l = .ok r ∧ ∀ j, r = some j → j < m.halfedges.length := by
  induction l with
  | nil => exact ⟨none, rfl, by simp⟩
  | cons j l ih =>
    have hx := List.getElem?_eq_getElem (hl j (by simp))
    obtain ⟨p, hp⟩ := hw.next hx
    unfold findOpposite
    rw [vecGet_of_getElem? hx, ok_bind, hp, ok_bind]
    by_cases hps : (p == start) = true
    · rw [if_pos hps]
      refine ⟨some j, rfl, fun i hi => ?_⟩
      cases hi
      exact hl j (by simp)
    · rw [if_neg hps]
      exact ih fun i hi => hl i (by simp [hi])

theorem walk_set {w : Nat} {cs : List (Vec T 3)} (ha : Apart cs) {kd : KdTree T 3 (List Nat) w} (hk : IndexInv cs cs.length kd) (l : List Nat)
    {m : HalfedgeMesh (Vec T 3)} (hw : CornerWalk cs m) (hl : ∀ k ∈ l, k < cs.length) :
    ∃ m', l.foldlM (oppositeSetRound false kd) m = .ok m' ∧ CornerWalk cs m' := by
  induction l generalizing m with
  | nil => exact ⟨m, rfl, hw⟩
  | cons k l ih =>
    have hkl : k < m.halfedges.length := by rw [hw.len]; exact hl k (by simp)
    have hx := List.getElem?_eq_getElem hkl
    obtain ⟨-, p, hp, hv⟩ := hw.he k _ hx
    obtain ⟨q, hq⟩ := hw.next hx
    have hmem : (p, occ cs cs.length p) ∈ KdNode.entries kd.root := by
      refine (hk.mem _).2 ⟨rfl, fun hc => ?_⟩
      have : k ∈ occ cs cs.length p := (mem_occ _ _ _ _).2 ⟨hl k (by simp), hp⟩
      rw [show occ cs cs.length p = [] from hc] at this
      cases this
    have hn := KdTree.nearest_of_stored kd hk.inv (hk.apart ha) _ hmem
    obtain ⟨r, hr, hrl⟩ := walk_find hw q (occ cs cs.length p) fun j hj => by rw [hw.len]; exact ((mem_occ _ _ _ _).1 hj).1
    have step : ∃ m', oppositeSetRound false kd m k = .ok m' ∧ CornerWalk cs m' := by
      unfold oppositeSetRound
      rw [vecGet_of_getElem? hx, ok_bind, hq, ok_bind, hv, ok_bind, hn, ok_bind, hr, ok_bind]
      cases r with
      | none => exact ⟨m, rfl, hw⟩
      | some j =>
        have hj := List.getElem?_eq_getElem (hrl j rfl)
        simp only [vecGet_of_getElem? hj, ok_bind]
        exact ⟨_, rfl, (hw.modify k _).modify j _⟩
    obtain ⟨m1, e1, hw1⟩ := step
    obtain ⟨m2, e2, hw2⟩ := ih hw1 fun i hi => hl i (by simp [hi])
    exact ⟨m2, by rw [List.foldlM_cons, e1, ok_bind, e2], hw2⟩

theorem walk_opposite (w : Nat) {cs : List (Vec T 3)} (ha : Apart cs) {m : HalfedgeMesh (Vec T 3)} (hw : CornerWalk cs m) :
    ∃ m', setOppositeHalfedges false w m = .ok m' ∧ CornerWalk cs m' := by
  obtain ⟨kd, h1, h2⟩ := walk_index w ha hw
  rw [hw.len] at h2
  unfold setOppositeHalfedges
  rw [h1, ok_bind]
  exact walk_set ha h2 _ hw fun k hk => by rw [← hw.len]; exact List.mem_range.1 hk
end

/-- **C151** Building a mesh from an index buffer in a release build: with all indices of complete triples in range, it ends whenever there are at most
as many points as index values, however many triangles there are. -/
theorem C151_build (M w : Nat) (h0 : 0 < M) (trafo : HMat ℝ) (points : List (Vec ℝ 3)) (idx : List Nat) (hp : points.length ≤ M)
    (hi : ∀ k < 3 * (idx.length / 3), ∀ i, idx[k]? = some i → i < points.length) :
    ∃ m, buildTriangleHalfedgeMesh false M w trafo points idx = .ok m ∧ m.facets.length = idx.length / 3 := by
  have ht : ∀ k < idx.length / 3, ∃ t, roundTriangle trafo points idx k = .ok t ∧
      ∀ c ∈ [t.1, t.2.1, t.2.2], c ∈ points.map (placeOf trafo) := by
    intro k hk
    obtain ⟨a, b, c, habc, h⟩ := roundTriangle_cases trafo points idx k hk
    rcases h with ⟨p, q, r, h1, h2, h3, e⟩ | ⟨hor, -⟩
    · refine ⟨_, e, ?_⟩
      intro x hx
      simp only [List.mem_cons, List.not_mem_nil, or_false] at hx
      rcases hx with rfl | rfl | rfl
      · exact List.mem_map_of_mem (List.mem_of_getElem? h3)
      · exact List.mem_map_of_mem (List.mem_of_getElem? h2)
      · exact List.mem_map_of_mem (List.mem_of_getElem? h1)
    · exfalso
      obtain ⟨h1, h2, h3⟩ := (triples_all_iff idx (· < points.length)).2 hi (a, b, c) (List.mem_of_getElem? habc)
      simp only at h1 h2 h3
      omega
  have key : ∀ N ≤ idx.length / 3, ∃ ts : List (Vec ℝ 3 × Vec ℝ 3 × Vec ℝ 3), ts.length = N ∧ (∀ c ∈ corners ts, c ∈ points.map (placeOf trafo)) ∧
      (List.range N).foldlM (fun m k => roundTriangle trafo points idx k >>= addTriangle false M m) HalfedgeMesh.empty = addTriangles false M ts := by
    intro N hN
    induction N with
    | zero => exact ⟨[], rfl, by simp [corners], rfl⟩
    | succ N ih =>
      obtain ⟨ts, hl, hc, e⟩ := ih (by omega)
      obtain ⟨t, e1, hm⟩ := ht N (by omega)
      refine ⟨ts ++ [t], by simp [hl], ?_, ?_⟩
      · intro c hcm
        rw [corners_snoc] at hcm
        rcases List.mem_append.1 hcm with hcm | hcm
        · exact hc c hcm
        · exact hm c hcm
      · rw [List.range_succ, List.foldlM_append, e]
        unfold addTriangles
        rw [List.foldlM_append]
        congr 1
        funext m
        simp [e1, ok_bind]
  obtain ⟨ts, hl, hc, e⟩ := key _ le_rfl
  have hle : (corners ts).eraseDups.length ≤ M := by
    have : (corners ts).eraseDups ⊆ points.map (placeOf trafo) := fun c hcm => hc c (List.mem_eraseDups.1 hcm)
    have := ((nodup_eraseDups (corners ts)).subperm this).length_le
    rw [List.length_map] at this
    omega
  obtain ⟨m, hm⟩ := (C151_ends M h0 ts).1.2 hle
  obtain ⟨m', hm', -⟩ := walk_opposite w (apart_real _) (walk_of_ok h0 hm)
  refine ⟨m', ?_, ?_⟩
  · unfold buildTriangleHalfedgeMesh
    have hr : builderRound false M trafo points idx = fun m k => roundTriangle trafo points idx k >>= addTriangle false M m := by
      funext m k; exact builderRound_eq ..
    rw [geoAssert_release, ok_bind, geoAssert_release, ok_bind, hr, e, hm, ok_bind, hm']
  · rw [(setOpposite_vertices hm').2, (grown_of_ok h0 hm).2]
    simp [hl]

section Examples
/-- 86 triangles with the corners 0, 1, 2 need 258 half-edges: one more triangle than 8-bit indices can number, but only three points. -/
theorem many_corners (n : Nat) : (Spec.corners (List.replicate (n + 1) ((0, 1, 2) : Nat × Nat × Nat))).eraseDups = [0, 1, 2] := by
  have step : ∀ n, (Spec.corners (List.replicate (n + 1) ((0, 1, 2) : Nat × Nat × Nat))).eraseDups = [0, 1, 2] := by
    intro n
    induction n with
    | zero => decide
    | succ n ih =>
      rw [List.replicate_succ', corners_snoc, List.eraseDups_append, ih]
      have hm : ∀ x ∈ [0, 1, 2], x ∈ Spec.corners (List.replicate (n + 1) ((0, 1, 2) : Nat × Nat × Nat)) := by
        intro x hx
        rw [← List.mem_eraseDups, ih]; exact hx
      have : List.removeAll [0, 1, 2] (Spec.corners (List.replicate (n + 1) ((0, 1, 2) : Nat × Nat × Nat))) = [] := by
        rw [List.removeAll, List.filter_eq_nil_iff]
        intro x hx
        simp [hm x hx]
      rw [this]; rfl
  exact step n

theorem many_ok (M n : Nat) (hM : 3 ≤ M) : ∃ m, addTriangles false M (List.replicate (n + 1) ((0, 1, 2) : Nat × Nat × Nat)) = .ok m :=
  (C151_ends M (by omega) _).1.2 (by rw [many_corners]; simpa using hM)

example : ∃ m, addTriangles false 256 (List.replicate 86 ((0, 1, 2) : Nat × Nat × Nat)) = .ok m ∧ m.halfedges.length = 258 ∧ m.points = [0, 1, 2] ∧
    m.isValid false 256 = .ok false ∧ ∃ v ∈ m.vertices, calcVertexFacets m v = .error .outOfRange := by
  obtain ⟨m, hm⟩ := many_ok 256 85 (by norm_num)
  refine ⟨m, hm, ?_, ?_, C151_invalid 256 (by norm_num) _ (by norm_num) m hm, (C151_counterexample 85 (by norm_num) _ (by simp) m hm).2⟩
  · rcases C151_safe 256 (by norm_num) (List.replicate 86 ((0, 1, 2) : Nat × Nat × Nat)) with h | ⟨m', h, -, h2, -⟩
    · rw [hm] at h; cases h
    · rw [hm] at h
      cases h
      simpa using h2
  · rw [((C151_ends 256 (by norm_num) _).2 m hm).1, many_corners]

/-- 87 triangles: the first facet cannot be walked round. -/
example : ∃ m, addTriangles false 256 (List.replicate 87 ((0, 1, 2) : Nat × Nat × Nat)) = .ok m ∧
    ∃ f, vecGet m.facets 0 = .ok f ∧ calcHalfedges m f = .error .diverges := by
  obtain ⟨m, hm⟩ := many_ok 256 86 (by norm_num)
  exact ⟨m, hm, C151_loop_counterexample 85 (by norm_num) _ (by simp) m hm⟩

/-- A mesh with more points than index values is never finished. -/
example : addTriangles false 4 [((0, 1, 2) : Nat × Nat × Nat), (3, 4, 5)] = .error .diverges := by
  rcases C151_safe 4 (by norm_num) [((0, 1, 2) : Nat × Nat × Nat), (3, 4, 5)] with h | ⟨m, h, -⟩
  · exact h
  · exact absurd ((C151_ends 4 (by norm_num) _).1.1 ⟨m, h⟩) (by decide)

/-- A buffer with two triangles and indices that only count to four. -/
example : ∃ m, buildTriangleHalfedgeMesh false 4 64 (hmatIdentity : HMat ℝ) [vec3 0 0 0, vec3 1 0 0, vec3 0 1 0] [0, 1, 2, 0, 2, 1] = .ok m ∧
    m.isValid false 4 = .ok false := by
  obtain ⟨m, hm, -⟩ := C151_build 4 64 (by norm_num) hmatIdentity [vec3 0 0 0, vec3 1 0 0, vec3 0 1 0] [0, 1, 2, 0, 2, 1] (by simp) (by
    intro k _ i hi
    have := List.mem_of_getElem? hi
    simp only [List.mem_cons, List.not_mem_nil, or_false] at this
    simp only [List.length_cons, List.length_nil]
    omega)
  exact ⟨m, hm, C151_buffer 4 64 (by norm_num) _ _ _ (by simp) m hm⟩
end Examples
end Verif
