import Verif.Props.MeshLines

set_option linter.unusedSectionVars false

/-
C152: exporting the indices of a mesh as numbers of a type that cannot hold them.
-/
namespace Verif
open Spec

section
variable {V : Type}

theorem narrow_triangles (MU : Nat) (o : Nat → Nat) (pts : List V) (as : List Nat) (n : Nat) (hn : as.length = 3 * n) :
    calcTriangleIndices MU (meshOfO o pts as) = .ok (as.map (· % MU)) := by
  unfold calcTriangleIndices
  have key : ∀ j ≤ n, ((List.range j).map fun f => (⟨3 * f⟩ : Facet)).foldlM (fun result f => do
      let hes ← calcHalfedges (meshOfO o pts as) f
      .ok (result ++ hes.map fun h => h.vertex % MU)) [] = (.ok ((as.take (3 * j)).map (· % MU)) : Res (List Nat)) := by
    intro j hj
    induction j with
    | zero => rfl
    | succ j ih =>
      rw [List.range_succ, List.map_append, List.foldlM_append, ih (by omega), ok_bind]
      simp only [List.map_cons, List.map_nil, List.foldlM_cons, List.foldlM_nil]
      rw [calcHalfedges_meshOfO _ _ _ _ hn j (by omega), ok_bind]
      have hg : ∀ k (hk : k < as.length), (heOfO o as k).vertex = as[k] := by
        intro k hk
        show as.getD k 0 = as[k]
        rw [List.getD_eq_getElem?_getD, List.getElem?_eq_getElem hk, Option.getD_some]
      simp only [List.map_cons, List.map_nil, hg (3 * j) (by omega), hg (3 * j + 1) (by omega), hg (3 * j + 2) (by omega)]
      rw [ok_bind, pure_eq_ok, show 3 * (j + 1) = 3 * j + 1 + 1 + 1 by omega]
      rw [List.take_add_one, List.take_add_one, List.take_add_one]
      rw [List.getElem?_eq_getElem (show 3 * j < as.length by omega), List.getElem?_eq_getElem (show 3 * j + 1 < as.length by omega),
        List.getElem?_eq_getElem (show 3 * j + 1 + 1 < as.length by omega)]
      simp only [Option.toList_some, List.append_assoc, List.cons_append, List.nil_append, List.map_append, List.map_cons, List.map_nil]
  have := key n le_rfl
  rw [List.take_of_length_le (by omega)] at this
  rw [show (meshOfO o pts as).facets = (List.range n).map fun f => (⟨3 * f⟩ : Facet) by
    simp [meshOfO, facetsOf, show as.length / 3 = n by omega]]
  exact this

/-- What is known of a mesh built from `ts`: the points, and the number of the point at each corner. -/
theorem built_numbers [BEq V] [LawfulBEq V] {dbg : Bool} {M : Nat} {ts : List (V × V × V)} (hM : 3 * ts.length < M) {m : HalfedgeMesh V}
    (hb : BuiltFrom dbg M ts m) : ∃ (o : Nat → Nat) (pts : List V) (as : List Nat), m = meshOfO o pts as ∧ as.length = 3 * ts.length ∧ pts.Nodup ∧
      as.map (fun a => pts[a]?) = (corners ts).map some ∧ (∀ a < pts.length, a ∈ as) ∧ ∀ a ∈ as, a < pts.length := by
  obtain ⟨o, rfl⟩ := hb.eq hM
  have hl : (weld (corners ts)).2.length = 3 * ts.length := by rw [weld_length, corners_length]
  have hmap : (weld (corners ts)).2.map (fun a => (weld (corners ts)).1[a]?) = (corners ts).map some := by
    apply List.ext_getElem?
    intro k
    by_cases hk : k < (corners ts).length
    · have hk' : k < (weld (corners ts)).2.length := by rw [weld_length]; exact hk
      have := weld_get (corners ts) k hk
      rw [List.getD_eq_getElem?_getD, List.getElem?_eq_getElem hk', Option.getD_some] at this
      simp only [List.getElem?_map, List.getElem?_eq_getElem hk', List.getElem?_eq_getElem hk, Option.map_some, Option.some.injEq]
      exact this
    · rw [List.getElem?_eq_none (by simpa [weld_length] using hk), List.getElem?_eq_none (by simpa using hk)]
  have hnd : (weld (corners ts)).1.Nodup := by rw [weld_fst]; exact nodup_eraseDups _
  refine ⟨o, _, _, rfl, hl, hnd, hmap, ?_, (weld_welded (corners ts)).lt⟩
  intro a ha
  have hsub : ∀ c ∈ (weld (corners ts)).1, c ∈ corners ts := by
    intro c hc
    rw [weld_fst] at hc
    exact List.mem_eraseDups.1 hc
  have hc := hsub _ (List.getElem_mem ha)
  have hm : some (weld (corners ts)).1[a] ∈ (corners ts).map some := List.mem_map_of_mem hc
  rw [← hmap] at hm
  obtain ⟨b, hb', e⟩ := List.mem_map.1 hm
  have hlt := (List.getElem?_eq_some_iff.1 e).1
  obtain rfl : b = a := (List.getElem?_inj hlt hnd).1 (e.trans (List.getElem?_eq_getElem ha).symm)
  exact hb'

/-- **C152** `calc_triangle_indices<U>` always ends, in release and debug builds, with the number of the point at each corner modulo the number of values
of `U`: numbers that do not fit are cut off silently. -/
theorem C152_triangles [BEq V] [LawfulBEq V] (dbg : Bool) (M MU : Nat) (ts : List (V × V × V)) (hM : 3 * ts.length < M) (m : HalfedgeMesh V)
    (hb : BuiltFrom dbg M ts m) :
    ∃ as : List Nat, as.map (fun a => m.points[a]?) = (corners ts).map some ∧ calcTriangleIndices MU m = .ok (as.map (· % MU)) := by
  obtain ⟨o, pts, as, rfl, hl, -, hmap, -⟩ := built_numbers hM hb
  exact ⟨as, hmap, narrow_triangles MU o pts as _ hl⟩

/-- **C152** So the exported numbers stand for the triangles of the mesh exactly if `U` can number all points. -/
theorem C152_faithful [BEq V] [LawfulBEq V] (dbg : Bool) (M MU : Nat) (h0 : 0 < MU) (ts : List (V × V × V)) (hM : 3 * ts.length < M) (m : HalfedgeMesh V)
    (hb : BuiltFrom dbg M ts m) (l : List Nat) (hl : calcTriangleIndices MU m = .ok l) :
    l.map (fun i => m.points[i]?) = (corners ts).map some ↔ (corners ts).eraseDups.length ≤ MU := by
  obtain ⟨o, pts, as, rfl, hlen, hnd, hmap, hall, hlt⟩ := built_numbers hM hb
  rw [narrow_triangles MU o pts as _ hlen] at hl
  cases hl
  have hpts : (corners ts).eraseDups.length = pts.length := by
    have hp : (corners ts).eraseDups.Perm pts := by
      rw [List.perm_ext_iff_of_nodup (nodup_eraseDups _) hnd]
      intro c
      rw [List.mem_eraseDups]
      constructor
      · intro hc
        have : some c ∈ (corners ts).map some := List.mem_map_of_mem hc
        rw [← hmap] at this
        obtain ⟨a, -, e⟩ := List.mem_map.1 this
        exact List.mem_of_getElem? e
      · intro hc
        obtain ⟨a, ha⟩ := List.getElem?_of_mem hc
        have := List.mem_map_of_mem (f := fun a => pts[a]?) (hall a (List.getElem?_eq_some_iff.1 ha).1)
        rw [hmap] at this
        obtain ⟨c', hc', e⟩ := List.mem_map.1 this
        simp only [ha] at e
        rwa [← Option.some.inj e]
    exact hp.length_eq
  rw [hpts]
  show (as.map (· % MU)).map (fun i => pts[i]?) = _ ↔ _
  constructor
  · intro h
    by_contra hgt
    have hmem := hall MU (by omega)
    obtain ⟨k, hk⟩ := List.getElem?_of_mem hmem
    have e1 := congrArg (fun l => l[k]?) (h.trans hmap.symm)
    simp only [List.getElem?_map, hk, Option.map_some, Nat.mod_self, Option.some.injEq] at e1
    have := (List.getElem?_inj (show 0 < pts.length by omega) hnd).1 e1
    omega
  · intro h
    rw [← hmap, List.map_map]
    refine List.map_congr_left fun a ha => ?_
    have := hlt a ha
    simp only [Function.comp, Nat.mod_eq_of_lt (show a < MU by omega)]

theorem foldlM_assertFailed {α β : Type} {f : β → α → Res β} {l : List α} (hf : ∀ r, ∀ x ∈ l, f r x = .error .assertFailed ∨ ∃ r', f r x = .ok r') {x : α}
    (hx : x ∈ l) (he : ∀ r, f r x = .error .assertFailed) (r : β) : l.foldlM f r = .error .assertFailed := by
  induction l generalizing r with
  | nil => cases hx
  | cons y l ih =>
    rw [List.foldlM_cons]
    rcases List.mem_cons.1 hx with rfl | hx
    · rw [he]; rfl
    · rcases hf r y (by simp) with e | ⟨r', e⟩
      · rw [e]; rfl
      · rw [e, ok_bind]; exact ih (fun r z hz => hf r z (by simp [hz])) hx r'

/-- **C152** `calc_line_indices<U>` of a debug build fails an assertion exactly if `U` cannot number all points. -/
theorem C152_lines_debug [BEq V] [LawfulBEq V] (M MU : Nat) (h0 : 0 < MU) (ts : List (V × V × V)) (hM : 3 * ts.length < M) (m : HalfedgeMesh V)
    (hb : BuiltFrom true M ts m) : calcLineIndices true MU m = .error .assertFailed ↔ MU < m.points.length := by
  constructor
  · intro h
    by_contra hle
    obtain ⟨es, e, -⟩ := C49_line_indices true M MU ts hM m hb (by omega)
    rw [e] at h; cases h
  · intro hgt
    obtain ⟨o, pts, as, rfl, hl, hnd, hmap, hall, hlt⟩ := built_numbers hM hb
    obtain ⟨k, hk⟩ := List.getElem?_of_mem (hall MU hgt)
    have hkl := (List.getElem?_eq_some_iff.1 hk).1
    have hgeo : ∀ b : Bool, geoAssert true b = .error .assertFailed ∨ geoAssert true b = .ok () := by
      intro b; cases b
      · exact .inl rfl
      · exact .inr rfl
    unfold calcLineIndices
    rw [foldlM_assertFailed (x := heOfO o as k)]
    · rfl
    · intro r x hx
      obtain ⟨j, hj, rfl⟩ := List.mem_map.1 hx
      rw [meshOfO_heNext _ _ _ hl (List.mem_range.1 hj), ok_bind]
      unfold edgeCreate
      rcases hgeo (decide ((heOfO o as j).vertex ≤ MU - 1)) with e | e
      · rw [e]; exact .inl rfl
      rw [e, ok_bind]
      rcases hgeo (decide ((heOfO o as (nextCorner j)).vertex ≤ MU - 1)) with e | e
      · rw [e]; exact .inl rfl
      rw [e, ok_bind, ok_bind]
      dsimp only
      generalize edgesSorted _ = c
      rcases hgeo c with e | e
      · rw [e]; exact .inl rfl
      · rw [e]; exact .inr ⟨_, rfl⟩
    · exact List.mem_map.2 ⟨k, List.mem_range.2 hkl, rfl⟩
    · intro r
      rw [meshOfO_heNext _ _ _ hl hkl, ok_bind]
      have hv : (heOfO o as k).vertex = MU := by
        show as.getD k 0 = MU
        rw [List.getD_eq_getElem?_getD, hk, Option.getD_some]
      unfold edgeCreate
      rw [hv, decide_eq_false (by omega)]
      rfl

/-- **C152** In release builds it ends with an increasing list of pairs `(a, b)`: those, in order, of the numbers of two points joined by a side of a
triangle, each modulo the number of values of `U`. -/
theorem C152_lines [BEq V] [LawfulBEq V] (M MU : Nat) (ts : List (V × V × V)) (hM : 3 * ts.length < M) (m : HalfedgeMesh V)
    (hb : BuiltFrom false M ts m) :
    ∃ es : List (Nat × Nat), calcLineIndices false MU m = .ok (es.flatMap fun e => [e.1, e.2]) ∧ es.Pairwise lexLt ∧
      ∀ a b, (a, b) ∈ es ↔ a ≤ b ∧ ∃ v w p q, m.points[v]? = some p ∧ m.points[w]? = some q ∧ (p, q) ∈ directedEdges ts ∧
        ((v % MU = a ∧ w % MU = b) ∨ (v % MU = b ∧ w % MU = a)) := by
  obtain ⟨o, pts, as, rfl, hl, hnd, hmap, hall, hlt⟩ := built_numbers hM hb
  let ed : Nat → Nat × Nat := fun k => (min (as.getD k 0 % MU) (as.getD (nextCorner k) 0 % MU), max (as.getD k 0 % MU) (as.getD (nextCorner k) 0 % MU))
  have hed : ∀ k, (ed k).1 ≤ (ed k).2 := fun k => by simp only [ed]; omega
  have hcreate : ∀ k < as.length, edgeCreate false MU (heOfO o as k).vertex (heOfO o as (nextCorner k)).vertex = .ok (ed k) := by
    intro k hk
    rw [show (heOfO o as k).vertex = as.getD k 0 from rfl,
      show (heOfO o as (nextCorner k)).vertex = as.getD (nextCorner k) 0 from rfl]
    unfold edgeCreate
    rw [geoAssert_release, geoAssert_release, ok_bind, ok_bind]
    dsimp only
    congr 1
    show _ = (min (as.getD k 0 % MU) (as.getD (nextCorner k) 0 % MU), max (as.getD k 0 % MU) (as.getD (nextCorner k) 0 % MU))
    split
    · rw [min_eq_right (by omega), max_eq_left (by omega)]
    · rw [min_eq_left (by omega), max_eq_right (by omega)]
  have key : ∀ j ≤ as.length, ∃ es : List (Nat × Nat),
      ((List.range j).map (heOfO o as)).foldlM (fun edges h => do
        let n ← (meshOfO o pts as).heNext h
        let e ← edgeCreate false MU h.vertex n.vertex
        let edges' := edgeInsert edges e
        let _ ← geoAssert false (edgesSorted edges')
        .ok edges') [] = (.ok es : Res (List (Nat × Nat))) ∧
      es.Pairwise lexLt ∧ ∀ x, x ∈ es ↔ ∃ k < j, x = ed k := by
    intro j hj
    induction j with
    | zero => exact ⟨[], rfl, List.Pairwise.nil, by simp⟩
    | succ j ih =>
      obtain ⟨es, h1, h2, h3⟩ := ih (by omega)
      have hn : ∀ f ∈ es, f.1 ≤ f.2 := by
        intro f hf
        obtain ⟨k, _, rfl⟩ := (h3 f).1 hf
        exact hed k
      have hs := edgeInsert_sorted es (ed j) (hed j) hn h2
      refine ⟨edgeInsert es (ed j), ?_, hs, ?_⟩
      · rw [List.range_succ, List.map_append, List.foldlM_append, h1, ok_bind]
        simp only [List.map_cons, List.map_nil, List.foldlM_cons, List.foldlM_nil]
        rw [meshOfO_heNext _ _ _ hl (by omega), ok_bind, hcreate j (by omega), ok_bind, geoAssert_release, ok_bind]
        rfl
      · intro x
        rw [edgeInsert_mem es (ed j) (hed j) hn, h3]
        constructor
        · rintro (⟨k, hk, rfl⟩ | rfl)
          · exact ⟨k, by omega, rfl⟩
          · exact ⟨j, by omega, rfl⟩
        · rintro ⟨k, hk, rfl⟩
          rcases Nat.lt_succ_iff_lt_or_eq.1 hk with hk | rfl
          · exact .inl ⟨k, hk, rfl⟩
          · exact .inr rfl
  obtain ⟨es, h1, h2, h3⟩ := key as.length le_rfl
  refine ⟨es, ?_, h2, ?_⟩
  · unfold calcLineIndices
    rw [show (meshOfO o pts as).halfedges = (List.range as.length).map (heOfO o as) from rfl, h1, ok_bind]
  have hcl : as.length = (corners ts).length := by simpa using congrArg List.length hmap
  have hpt : ∀ k < as.length, pts[as.getD k 0]? = (corners ts)[k]? := by
    intro k hk
    have e := congrArg (fun l => l[k]?) hmap
    simp only [List.getElem?_map, List.getElem?_eq_getElem hk, List.getElem?_eq_getElem (show k < (corners ts).length by omega), Option.map_some,
      Option.some.injEq] at e
    rw [List.getD_eq_getElem?_getD, List.getElem?_eq_getElem hk, Option.getD_some, e, List.getElem?_eq_getElem (by omega)]
  have hedge : ∀ k < as.length, ∃ p q, pts[as.getD k 0]? = some p ∧ pts[as.getD (nextCorner k) 0]? = some q ∧
      (directedEdges ts)[k]? = some (p, q) := by
    intro k hk
    have hk2 : nextCorner k < as.length := by rw [hl] at hk ⊢; exact nextCorner_lt hk
    rw [hpt k hk, hpt _ hk2, directedEdges_get, List.getElem?_eq_getElem (show k < (corners ts).length by omega),
      List.getElem?_eq_getElem (show nextCorner k < (corners ts).length by omega)]
    exact ⟨_, _, rfl, rfl, rfl⟩
  have hinj : ∀ (i j : Nat) (p : V), pts[i]? = some p → pts[j]? = some p → i = j := by
    intro i j p hi hj
    exact (List.getElem?_inj (List.getElem?_eq_some_iff.1 hi).1 hnd).1 (hi.trans hj.symm)
  intro a b
  rw [h3]
  show _ ↔ a ≤ b ∧ ∃ v w p q, pts[v]? = some p ∧ pts[w]? = some q ∧ _
  constructor
  · rintro ⟨k, hk, he⟩
    obtain ⟨p, q, e1, e2, e3⟩ := hedge k hk
    simp only [ed, Prod.mk.injEq] at he
    exact ⟨by omega, _, _, p, q, e1, e2, List.mem_of_getElem? e3, by omega⟩
  · rintro ⟨hab, v, w, p, q, e1, e2, hm, hor⟩
    obtain ⟨k, hk⟩ := List.mem_iff_getElem?.1 hm
    have hk' : k < as.length := by
      by_contra hge
      rw [directedEdges_get, List.getElem?_eq_none (by omega)] at hk
      simp at hk
    obtain ⟨p', q', f1, f2, f3⟩ := hedge k hk'
    rw [hk, Option.some.injEq, Prod.mk.injEq] at f3
    rw [← f3.1] at f1
    rw [← f3.2] at f2
    have i1 := hinj _ _ _ e1 f1
    have i2 := hinj _ _ _ e2 f2
    refine ⟨k, hk', ?_⟩
    simp only [ed, ← i1, ← i2, Prod.mk.injEq]
    omega

/-- **C152** So every side of a triangle is exported exactly if `U` can number all points; no assertion of a release build tells. -/
theorem C152_lines_complete [BEq V] [LawfulBEq V] (M MU : Nat) (h0 : 0 < MU) (ts : List (V × V × V)) (hM : 3 * ts.length < M) (m : HalfedgeMesh V)
    (hb : BuiltFrom false M ts m) (es : List (Nat × Nat)) (hes : calcLineIndices false MU m = .ok (es.flatMap fun e => [e.1, e.2])) :
    (∀ p q, (p, q) ∈ directedEdges ts → ∃ a b, (a, b) ∈ es ∧ ((m.points[a]? = some p ∧ m.points[b]? = some q) ∨
      (m.points[a]? = some q ∧ m.points[b]? = some p))) ↔ m.points.length ≤ MU := by
  obtain ⟨fs, h1, -, h2⟩ := C152_lines M MU ts hM m hb
  rw [hes] at h1
  have hflat : ∀ es fs : List (Nat × Nat), (es.flatMap fun e => [e.1, e.2]) = (fs.flatMap fun e => [e.1, e.2]) → es = fs := by
    intro es
    induction es with
    | nil => intro fs h; cases fs with
      | nil => rfl
      | cons f fs => simp at h
    | cons e es ih => intro fs h; cases fs with
      | nil => simp at h
      | cons f fs =>
        simp only [List.flatMap_cons, List.cons_append, List.nil_append, List.cons.injEq] at h
        rw [ih fs h.2.2, Prod.ext h.1 h.2.1]
  obtain rfl := hflat _ _ (Except.ok.inj h1)
  obtain ⟨o, pts, as, rfl, hl, hnd, hmap, hall, hlt⟩ := built_numbers hM hb
  have hinj : ∀ (i j : Nat) (p : V), pts[i]? = some p → pts[j]? = some p → i = j := by
    intro i j p hi hj
    exact (List.getElem?_inj (List.getElem?_eq_some_iff.1 hi).1 hnd).1 (hi.trans hj.symm)
  change ∀ a b, (a, b) ∈ es ↔ a ≤ b ∧ ∃ v w p q, pts[v]? = some p ∧ pts[w]? = some q ∧ _ at h2
  show (∀ p q, (p, q) ∈ directedEdges ts → ∃ a b, (a, b) ∈ es ∧ ((pts[a]? = some p ∧ pts[b]? = some q) ∨ (pts[a]? = some q ∧ pts[b]? = some p))) ↔
    pts.length ≤ MU
  constructor
  · intro h
    by_contra hgt
    obtain ⟨k, hk⟩ := List.getElem?_of_mem (hall MU (by omega))
    have hkl := (List.getElem?_eq_some_iff.1 hk).1
    have hcl : as.length = (corners ts).length := by simpa using congrArg List.length hmap
    have e := congrArg (fun l => l[k]?) hmap
    simp only [List.getElem?_map, hk, List.getElem?_eq_getElem (show k < (corners ts).length by omega), Option.map_some, Option.some.injEq] at e
    have hk2 : nextCorner k < (corners ts).length := by rw [← hcl, hl] at *; exact nextCorner_lt hkl
    have hm : ((corners ts)[k], (corners ts)[nextCorner k]) ∈ directedEdges ts := by
      apply List.mem_of_getElem? (i := k)
      rw [directedEdges_get, List.getElem?_eq_getElem (show k < (corners ts).length by omega), List.getElem?_eq_getElem hk2]
      rfl
    obtain ⟨a, b, hab, hor⟩ := h _ _ hm
    obtain ⟨-, v, w, -, -, -, -, -, hvw⟩ := (h2 a b).1 hab
    have ha : a < MU ∧ b < MU := by
      have := Nat.mod_lt v h0
      have := Nat.mod_lt w h0
      omega
    rcases hor with ⟨h3, -⟩ | ⟨-, h3⟩
    · have := hinj _ _ _ h3 e; omega
    · have := hinj _ _ _ h3 e; omega
  · intro hle p q hpq
    have hmemp : ∀ c ∈ corners ts, ∃ a : Nat, pts[a]? = some c := by
      intro c hc
      have : some c ∈ (corners ts).map some := List.mem_map_of_mem hc
      rw [← hmap] at this
      obtain ⟨a, -, e⟩ := List.mem_map.1 this
      exact ⟨a, e⟩
    obtain ⟨k, hk⟩ := List.mem_iff_getElem?.1 hpq
    rw [directedEdges_get] at hk
    obtain ⟨p', hp', hk⟩ := Option.bind_eq_some_iff.1 hk
    obtain ⟨q', hq', hk⟩ := Option.bind_eq_some_iff.1 hk
    cases hk
    obtain ⟨v, hv⟩ := hmemp p (List.mem_of_getElem? hp')
    obtain ⟨w, hw⟩ := hmemp q (List.mem_of_getElem? hq')
    have hv' := (List.getElem?_eq_some_iff.1 hv).1
    have hw' := (List.getElem?_eq_some_iff.1 hw).1
    rcases Nat.le_total v w with hvw | hvw
    · exact ⟨v, w, (h2 v w).2 ⟨hvw, v, w, p, q, hv, hw, hpq, .inl ⟨Nat.mod_eq_of_lt (by omega), Nat.mod_eq_of_lt (by omega)⟩⟩, .inl ⟨hv, hw⟩⟩
    · exact ⟨w, v, (h2 w v).2 ⟨hvw, v, w, p, q, hv, hw, hpq, .inr ⟨Nat.mod_eq_of_lt (by omega), Nat.mod_eq_of_lt (by omega)⟩⟩, .inr ⟨hw, hv⟩⟩
end

section Examples
/-- Triangles without common corners, with the corners 0, 1, 2, ... -/
def apartTriangles (n : Nat) : List (Nat × Nat × Nat) := (List.range n).map fun k => (3 * k, 3 * k + 1, 3 * k + 2)

theorem apartTriangles_corners (n : Nat) : corners (apartTriangles n) = List.range (3 * n) := by
  induction n with
  | zero => rfl
  | succ n ih =>
    rw [apartTriangles, List.range_succ, List.map_append]
    show corners (apartTriangles n ++ [(3 * n, 3 * n + 1, 3 * n + 2)]) = _
    rw [show corners (apartTriangles n ++ [(3 * n, 3 * n + 1, 3 * n + 2)]) = corners (apartTriangles n) ++ [3 * n, 3 * n + 1, 3 * n + 2] by
      simp [corners], ih, show 3 * (n + 1) = 3 * n + 1 + 1 + 1 by ring, List.range_succ, List.range_succ, List.range_succ]
    simp

theorem apartTriangles_points (dbg : Bool) (M n : Nat) (hM : 3 * n < M) : ∃ m, BuiltFrom dbg M (apartTriangles n) m ∧ m.points.length = 3 * n ∧
    (corners (apartTriangles n)).eraseDups.length = 3 * n := by
  have hl : (apartTriangles n).length = n := by simp [apartTriangles]
  have hp : (corners (apartTriangles n)).eraseDups.Perm (List.range (3 * n)) := by
    rw [List.perm_ext_iff_of_nodup (nodup_eraseDups _) List.nodup_range]
    intro c
    rw [List.mem_eraseDups, apartTriangles_corners]
  have he : (corners (apartTriangles n)).eraseDups.length = 3 * n := by rw [hp.length_eq, List.length_range]
  refine ⟨_, ⟨_, addTriangles_eq dbg M (apartTriangles n) (by rw [hl]; exact hM), rfl, rfl, rfl, rfl⟩, ?_, he⟩
  show (weld (corners (apartTriangles n))).1.length = 3 * n
  rw [weld_fst, he]

/-- 86 triangles with 258 points, exported as numbers of 8 bits: wrong triangles without any error. -/
example : ∃ m l, BuiltFrom true 65536 (apartTriangles 86) m ∧ calcTriangleIndices 256 m = .ok l ∧
    l.map (fun i => m.points[i]?) ≠ (corners (apartTriangles 86)).map some ∧ calcLineIndices true 256 m = .error .assertFailed := by
  have hM : 3 * (apartTriangles 86).length < 65536 := by simp [apartTriangles]
  obtain ⟨m, hb, hp, he⟩ := apartTriangles_points true 65536 86 (by norm_num)
  obtain ⟨as, -, e⟩ := C152_triangles true 65536 256 _ hM m hb
  refine ⟨m, _, hb, e, fun h => ?_, (C152_lines_debug 65536 256 (by norm_num) _ hM m hb).2 (by omega)⟩
  have := (C152_faithful true 65536 256 (by norm_num) _ hM m hb _ e).1 h
  omega

/-- In a release build sides are lost. -/
example : ∃ m, ∃ es : List (Nat × Nat), BuiltFrom false 65536 (apartTriangles 86) m ∧ calcLineIndices false 256 m = .ok (es.flatMap fun e : Nat × Nat => [e.1, e.2]) ∧
    ∃ p q, (p, q) ∈ directedEdges (apartTriangles 86) ∧ ∀ a b : Nat, (a, b) ∈ es → ¬ (m.points[a]? = some p ∧ m.points[b]? = some q) := by
  have hM : 3 * (apartTriangles 86).length < 65536 := by simp [apartTriangles]
  obtain ⟨m, hb, hp, he⟩ := apartTriangles_points false 65536 86 (by norm_num)
  obtain ⟨es, e, -⟩ := C152_lines 65536 256 _ hM m hb
  have h := mt (C152_lines_complete 65536 256 (by norm_num) _ hM m hb es e).1 (by omega)
  push Not at h
  obtain ⟨p, q, hpq, h⟩ := h
  exact ⟨m, es, hb, e, p, q, hpq, fun a b hab hc => (h a b hab).1 hc.1 hc.2⟩
end Examples
end Verif
