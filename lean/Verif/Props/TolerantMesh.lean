import Verif.Spec.Snap
import Verif.Props.MeshAnyCoord
import Verif.Props.MeshOpposite

set_option linter.unusedSectionVars false

/-
Property C143: meshes built with a comparison of points that has a tolerance and so is not transitive.
-/
namespace Verif
open Spec KdNode

/-! ### Welding -/
section
variable {V : Type}

theorem snapFrom_length [BEq V] (kept cs : List V) : (snapFrom kept cs).length = cs.length := by
  induction cs generalizing kept with
  | nil => rfl
  | cons c cs ih =>
    unfold snapFrom
    split <;> simp [ih]

theorem corners_triples (l : List V) (n : Nat) (h : l.length = 3 * n) : corners (triples l) = l := by
  induction n generalizing l with
  | zero => rw [List.length_eq_zero_iff.1 h]; rfl
  | succ n ih =>
    match l, h with
    | a :: b :: c :: rest, h =>
      have := ih rest (by simp at h; omega)
      simp only [triples, corners, List.flatMap_cons] at this ⊢
      rw [this]; rfl
    | [], h => simp at h
    | [_], h => simp at h; omega
    | [_, _], h => simp at h; omega

theorem corners_snapTriangles [BEq V] (ts : List (V × V × V)) : corners (snapTriangles ts) = snapFrom [] (corners ts) :=
  corners_triples _ ts.length (by rw [snapFrom_length]; exact corners_length ts)

theorem snapTriangles_length [BEq V] (ts : List (V × V × V)) : (snapTriangles ts).length = ts.length :=
  by rw [snapTriangles, triples_length, snapFrom_length, show (ts.flatMap fun t => [t.1, t.2.1, t.2.2]) = corners ts from rfl, corners_length]; omega

/-- No kept point compares equal to a later one. -/
def KeptApart (b : BEq V) (kept : List V) : Prop := kept.Pairwise fun p q => b.beq p q = false

theorem KeptApart.snoc {b : BEq V} {kept : List V} (h : KeptApart b kept) {c : V} (hc : ∀ p ∈ kept, b.beq p c = false) :
    KeptApart b (kept ++ [c]) := by
  unfold KeptApart at h ⊢
  rw [List.pairwise_append]
  exact ⟨h, by simp, by simpa using hc⟩

theorem KeptApart.nodup {b : BEq V} (hr : ∀ p, b.beq p p = true) {kept : List V} (h : KeptApart b kept) : kept.Nodup := by
  refine List.Pairwise.imp ?_ h
  rintro p q hpq rfl
  rw [hr] at hpq; cases hpq

theorem weldStep_snap (b e : BEq V) (he : ∀ p q, e.beq p q = true ↔ p = q) (hr : ∀ p, b.beq p p = true) (s : List V × List Nat)
    (hk : KeptApart b s.1) (c : V) :
    @weldStep V b s c = @weldStep V e s ((s.1.find? fun p => b.beq p c).getD c) ∧ KeptApart b (@weldStep V b s c).1 := by
  obtain ⟨kept, as⟩ := s
  have hnd := hk.nodup hr
  unfold weldStep
  dsimp only at hk hnd ⊢
  cases hf : kept.findIdx? (fun p => b.beq p c) with
  | some i =>
    obtain ⟨hi, hb, hlt⟩ := List.findIdx?_eq_some_iff_getElem.1 hf
    have h1 : kept.find? (fun p => b.beq p c) = some kept[i] := by
      rw [List.find?_eq_some_iff_getElem]
      exact ⟨hb, i, hi, rfl, fun j hj => by simpa using hlt j hj⟩
    have h2 : kept.findIdx? (fun p => e.beq p kept[i]) = some i := by
      rw [List.findIdx?_eq_some_iff_getElem]
      refine ⟨hi, by rw [he], fun j hj => ?_⟩
      rw [he]
      intro h
      exact absurd ((List.Nodup.getElem_inj_iff hnd).1 h) (by omega)
    rw [h1]
    dsimp only [Option.getD_some]
    rw [h2]
    exact ⟨rfl, hk⟩
  | none =>
    have hn : ∀ p ∈ kept, b.beq p c = false := by simpa [List.findIdx?_eq_none_iff] using hf
    have h1 : kept.find? (fun p => b.beq p c) = none := by
      rw [List.find?_eq_none]; intro p hp; rw [hn p hp]; simp
    have h2 : kept.findIdx? (fun p => e.beq p c) = none := by
      rw [List.findIdx?_eq_none_iff]
      intro p hp
      by_contra h
      rw [Bool.not_eq_false, he] at h
      subst h
      have := hn p hp
      rw [hr] at this; cases this
    rw [h1]
    dsimp only [Option.getD_none]
    rw [h2]
    exact ⟨rfl, hk.snoc hn⟩

theorem snapFrom_cons [BEq V] (s : List V × List Nat) (c : V) (cs : List V) :
    snapFrom s.1 (c :: cs) = ((s.1.find? (· == c)).getD c) :: snapFrom (weldStep s c).1 cs := by
  rw [snapFrom]
  unfold weldStep
  cases hf : s.1.findIdx? (· == c) with
  | some i =>
    obtain ⟨hi, hb, hlt⟩ := List.findIdx?_eq_some_iff_getElem.1 hf
    have h1 : s.1.find? (· == c) = some s.1[i] := by
      rw [List.find?_eq_some_iff_getElem]
      exact ⟨hb, i, hi, rfl, fun j hj => by simpa using hlt j hj⟩
    rw [h1]; rfl
  | none =>
    have h1 : s.1.find? (· == c) = none := by
      rw [List.find?_eq_none]; simpa [List.findIdx?_eq_none_iff] using hf
    rw [h1]; rfl

theorem weldFold_snap (b e : BEq V) (he : ∀ p q, e.beq p q = true ↔ p = q) (hr : ∀ p, b.beq p p = true) (cs : List V)
    (s : List V × List Nat) (hk : KeptApart b s.1) :
    cs.foldl (@weldStep V b) s = (@snapFrom V b s.1 cs).foldl (@weldStep V e) s ∧ KeptApart b (cs.foldl (@weldStep V b) s).1 := by
  induction cs generalizing s with
  | nil => exact ⟨rfl, hk⟩
  | cons c cs ih =>
    obtain ⟨h1, h2⟩ := weldStep_snap b e he hr s hk c
    obtain ⟨h3, h4⟩ := ih _ h2
    rw [List.foldl_cons]
    refine ⟨?_, h4⟩
    rw [h3]
    rw [@snapFrom_cons V b, List.foldl_cons, ← h1]

theorem addTriangles_snap (b e : BEq V) (he : ∀ p q, e.beq p q = true ↔ p = q) (hr : ∀ p, b.beq p p = true) (dbg : Bool) (M : Nat)
    (ts : List (V × V × V)) (hM : 3 * ts.length < M) :
    @addTriangles V b dbg M ts = @addTriangles V e dbg M (@snapTriangles V b ts) := by
  have h2 : 3 * (@snapTriangles V b ts).length < M := by rw [@snapTriangles_length V b]; exact hM
  rw [@addTriangles_eq V b dbg M ts hM, @addTriangles_eq V e dbg M _ h2, @corners_snapTriangles V b]
  unfold weld
  rw [(weldFold_snap b e he hr (corners ts) ([], []) List.Pairwise.nil).1]

theorem addTriangles_keptApart (b : BEq V) (hr : ∀ p, b.beq p p = true) (dbg : Bool) (M : Nat) (ts : List (V × V × V)) (hM : 3 * ts.length < M)
    (m : HalfedgeMesh V) (hm : @addTriangles V b dbg M ts = .ok m) : KeptApart b m.points := by
  classical
  rw [@addTriangles_eq V b dbg M ts hM, Except.ok.injEq] at hm
  subst hm
  exact (weldFold_snap b ⟨fun p q => decide (p = q)⟩ (by simp) hr (corners ts) ([], []) List.Pairwise.nil).2
end

/-! ### Linking opposite half-edges -/
namespace KdNode
variable {T : Type u} {D : Nat} {P : Type v} {w : Nat} [NeZero D] [LT T] [DecidableLT T]

theorem insertHelper_congr (b e : BEq (Vec T D)) (pt : Vec T D) (pl : P) (n : KdNode (Vec T D) P) (d : BitVec w)
    (h : ∀ x ∈ entries n, b.beq x.1 pt = e.beq x.1 pt) :
    @insertHelper T D P w _ _ _ b pt pl n d = @insertHelper T D P w _ _ _ e pt pl n d := by
  induction n generalizing d with
  | nil => rfl
  | node p q l r ihl ihr =>
    have h0 := h (p, q) (by simp [entries])
    have hl := ihl (d + 1) fun x hx => h x (by simp [entries, hx])
    have hr := ihr (d + 1) fun x hx => h x (by simp [entries, hx])
    unfold insertHelper
    dsimp only at h0
    change (if b.beq p pt = true then _ else _) = (if e.beq p pt = true then _ else _)
    rw [h0, hl, hr]

theorem searchHelper_congr (b e : BEq (Vec T D)) (pt : Vec T D) (n : KdNode (Vec T D) P) (d : BitVec w)
    (h : ∀ x ∈ entries n, b.beq x.1 pt = e.beq x.1 pt) :
    @searchHelper T D P w _ _ _ b pt n d = @searchHelper T D P w _ _ _ e pt n d := by
  induction n generalizing d with
  | nil => rfl
  | node p q l r ihl ihr =>
    have h0 := h (p, q) (by simp [entries])
    have hl := ihl (d + 1) fun x hx => h x (by simp [entries, hx])
    have hr := ihr (d + 1) fun x hx => h x (by simp [entries, hx])
    unfold searchHelper
    dsimp only at h0
    change (if b.beq p pt = true then _ else _) = (if e.beq p pt = true then _ else _)
    rw [h0, hl, hr]

theorem insert_entry [BEq (Vec T D)] (pt : Vec T D) (pl : P) (n : KdNode (Vec T D) P) (d : BitVec w) (x : Vec T D × P)
    (h : x ∈ entries (insertHelper pt pl n d).1) : x ∈ entries n ∨ x = (pt, pl) := by
  induction n generalizing d with
  | nil => simp only [insertHelper, entries, List.append_nil, List.mem_singleton] at h; exact .inr h
  | node p q l r ihl ihr =>
    unfold insertHelper at h
    split at h
    · exact .inl h
    · split at h
      · simp only [entries, List.mem_cons, List.mem_append] at h ⊢
        rcases h with h | h | h
        · exact .inl (.inl h)
        · rcases ihl _ h with h | h
          · exact .inl (.inr (.inl h))
          · exact .inr h
        · exact .inl (.inr (.inr h))
      · simp only [entries, List.mem_cons, List.mem_append] at h ⊢
        rcases h with h | h | h
        · exact .inl (.inl h)
        · exact .inl (.inr (.inl h))
        · rcases ihr _ h with h | h
          · exact .inl (.inr (.inr h))
          · exact .inr h
end KdNode

theorem foldlM_congr_inv {α σ : Type} (f g : σ → α → Res σ) (I : σ → Prop) (l : List α)
    (h : ∀ s a, I s → f s a = g s a ∧ ∀ s', f s a = .ok s' → I s') (s : σ) (hs : I s) : l.foldlM f s = l.foldlM g s := by
  induction l generalizing s with
  | nil => rfl
  | cons a l ih =>
    obtain ⟨h1, h2⟩ := h s a hs
    rw [List.foldlM_cons, List.foldlM_cons, ← h1]
    cases hf : f s a with
    | error _ => rfl
    | ok s' => exact ih s' (h2 s' hf)

section
variable {T : Type} [Zero T] [Add T] [Sub T] [Mul T] [Neg T] [HasSqrt T] [LT T] [DecidableLT T]

theorem vecGet_mem {α : Type} {l : List α} {i : Nat} {a : α} (h : vecGet l i = .ok a) : a ∈ l := by
  unfold vecGet at h
  split at h
  · cases h; exact List.mem_of_getElem? (by assumption)
  · cases h

theorem findOpposite_congr (b e : BEq (Vec T 3)) (m : HalfedgeMesh (Vec T 3)) (h : ∀ p ∈ m.points, ∀ q ∈ m.points, b.beq p q = e.beq p q)
    (start : Vec T 3) (hs : start ∈ m.points) (l : List Nat) : @findOpposite T b m start l = @findOpposite T e m start l := by
  induction l with
  | nil => rfl
  | cons j l ih =>
    unfold findOpposite
    cases hc : vecGet m.halfedges j with
    | error _ => rfl
    | ok c =>
      rw [ok_bind, ok_bind]
      cases hv : m.heNextVector c with
      | error _ => rfl
      | ok v =>
        rw [ok_bind, ok_bind, ih]
        rw [h v (heNextVector_mem hv) start hs]

/-- Two comparisons that agree on the points of the mesh link the half-edges in the same way. -/
theorem setOpposite_congr (b e : BEq (Vec T 3)) (dbg : Bool) (w : Nat) (m : HalfedgeMesh (Vec T 3))
    (h : ∀ p ∈ m.points, ∀ q ∈ m.points, b.beq p q = e.beq p q) :
    @setOppositeHalfedges T _ _ _ _ _ _ _ _ b dbg w m = @setOppositeHalfedges T _ _ _ _ _ _ _ _ e dbg w m := by
  unfold setOppositeHalfedges
  rw [foldlM_congr_inv (@oppositeIndexRound T w _ _ _ _ _ _ _ _ b m) (@oppositeIndexRound T w _ _ _ _ _ _ _ _ e m)
    (fun kd => ∀ x ∈ entries kd.root, x.1 ∈ m.points) _ ?_ KdTree.empty (by simp [KdTree.empty, entries])]
  · congr 1
    funext kd
    refine foldlM_congr_inv _ _ (fun m' => m'.points = m.points) _ ?_ m rfl
    intro m' k hm'
    unfold oppositeSetRound
    cases hk : vecGet m'.halfedges k with
    | error _ => exact ⟨rfl, by rintro s' ⟨⟩⟩
    | ok he =>
      simp only [ok_bind]
      cases hs : m'.heNextVector he with
      | error _ => exact ⟨rfl, by rintro s' ⟨⟩⟩
      | ok start =>
        simp only [ok_bind]
        have hst := heNextVector_mem hs
        cases hv : m'.heVector he with
        | error _ => exact ⟨rfl, by rintro s' ⟨⟩⟩
        | ok en =>
          simp only [ok_bind]
          cases hn : kd.nearest en with
          | error _ => exact ⟨rfl, by rintro s' ⟨⟩⟩
          | ok r =>
            simp only [ok_bind]
            rw [findOpposite_congr b e m' (by rw [hm']; exact h) start hst]
            refine ⟨rfl, ?_⟩
            intro s' hs'
            obtain ⟨o, _, hs'⟩ := bind_ok hs'
            cases o with
            | none =>
              obtain ⟨_, _, hs'⟩ := bind_ok hs'
              cases hs'; exact hm'
            | some j =>
              obtain ⟨_, _, hs'⟩ := bind_ok hs'
              cases hs'; exact hm'
  · intro kd i hkd
    unfold oppositeIndexRound
    cases hk : vecGet m.halfedges i with
    | error _ => exact ⟨rfl, by rintro s' ⟨⟩⟩
    | ok he =>
      simp only [ok_bind]
      cases hs : m.heVector he with
      | error _ => exact ⟨rfl, by rintro s' ⟨⟩⟩
      | ok start =>
        simp only [ok_bind]
        have hst := heVector_mem hs
        have h1 : @KdTree.search T 3 (List Nat) w _ _ _ b kd start = @KdTree.search T 3 (List Nat) w _ _ _ e kd start :=
          searchHelper_congr b e start kd.root 0 fun x hx => h _ (hkd x hx) _ hst
        have h2 : @KdTree.insert T 3 (List Nat) w _ _ _ b kd start [i] = @KdTree.insert T 3 (List Nat) w _ _ _ e kd start [i] := by
          unfold KdTree.insert
          rw [insertHelper_congr b e start [i] kd.root 0 fun x hx => h _ (hkd x hx) _ hst]
        rw [h1, h2]
        refine ⟨rfl, ?_⟩
        intro kd' hkd'
        split at hkd'
        · unfold KdTree.modifyNearest at hkd'
          split at hkd'
          · cases hkd'
          · cases hkd'
            intro x hx
            rcases modify_any _ _ _ _ hx with hx | ⟨x0, hx0, rfl⟩
            · exact hkd x hx
            · exact hkd x0 hx0
        · cases hkd'
          intro x hx
          rcases @insert_entry T 3 (List Nat) w _ _ _ e start [i] kd.root 0 x hx with hx | rfl
          · exact hkd x hx
          · exact hst

/-- `buildMesh` with a given comparison of points. -/
abbrev buildMeshWith (b : BEq (Vec T 3)) (dbg : Bool) (M w : Nat) (ts : List (Vec T 3 × Vec T 3 × Vec T 3)) :
    Res (HalfedgeMesh (Vec T 3)) := @buildMesh T _ _ _ _ _ _ _ _ b dbg M w ts

/-- **C143.**  Let points be compared in any way in which each point equals itself and the order of the two points does not matter; the
comparison need not be transitive.  The mesh is the one that exact comparison gives for the triangles with every corner replaced by the
first kept corner that compares equal to it. -/
theorem C143_mesh (b e : BEq (Vec T 3)) (he : ∀ p q, e.beq p q = true ↔ p = q) (hr : ∀ p, b.beq p p = true)
    (hs : ∀ p q, b.beq p q = b.beq q p) (dbg : Bool) (M w : Nat) (ts : List (Vec T 3 × Vec T 3 × Vec T 3)) (hM : 3 * ts.length < M) :
    buildMeshWith b dbg M w ts = buildMeshWith e dbg M w (@snapTriangles _ b ts) := by
  unfold buildMeshWith buildMesh
  rw [← addTriangles_snap b e he hr dbg M ts hM]
  cases hm : @addTriangles _ b dbg M ts with
  | error _ => rfl
  | ok m =>
    rw [ok_bind, ok_bind]
    have hk := addTriangles_keptApart b hr dbg M ts hM m hm
    refine setOpposite_congr b e dbg w m ?_
    have hp : ∀ p q : Vec T 3, p ≠ q → p ∈ m.points → q ∈ m.points → b.beq p q = false := by
      intro p q hpq hpm hqm
      have : Std.Symm fun p q : Vec T 3 => b.beq p q = false := ⟨fun x y hxy => by rw [hs]; exact hxy⟩
      exact List.Pairwise.forall hk hpm hqm hpq
    intro p hpm q hqm
    by_cases hpq : p = q
    · subst hpq; rw [hr, (he p p).2 rfl]
    · rw [hp p q hpq hpm hqm]
      symm
      rw [← Bool.not_eq_true, he]; exact hpq

theorem snapFrom_id {V : Type} [BEq V] (kept cs : List V) (h : ∀ p ∈ kept ++ cs, ∀ c ∈ cs, (p == c) = true → p = c) :
    snapFrom kept cs = cs := by
  induction cs generalizing kept with
  | nil => rfl
  | cons c cs ih =>
    unfold snapFrom
    cases hf : kept.find? (· == c) with
    | some r =>
      have h1 : r = c := h r (by simp [List.mem_of_find?_eq_some hf]) c (by simp) (by simpa using List.find?_some hf)
      dsimp only
      rw [h1, ih kept fun p hp d hd => h p (by simp only [List.mem_append, List.mem_cons] at hp ⊢; tauto) d (by simp [hd])]
    | none =>
      dsimp only
      rw [ih (kept ++ [c]) fun p hp d hd => h p (by simpa using hp) d (by simp [hd])]

/-- **C143.**  When no two different corners compare equal, the mesh is the one exact comparison gives. -/
theorem C143_same (b e : BEq (Vec T 3)) (he : ∀ p q, e.beq p q = true ↔ p = q) (hr : ∀ p, b.beq p p = true)
    (hs : ∀ p q, b.beq p q = b.beq q p) (dbg : Bool) (M w : Nat) (ts : List (Vec T 3 × Vec T 3 × Vec T 3)) (hM : 3 * ts.length < M)
    (hd : ∀ p ∈ corners ts, ∀ q ∈ corners ts, b.beq p q = true → p = q) :
    buildMeshWith b dbg M w ts = buildMeshWith e dbg M w ts := by
  rw [C143_mesh b e he hr hs dbg M w ts hM]
  congr 1
  unfold snapTriangles
  rw [show (ts.flatMap fun t => [t.1, t.2.1, t.2.2]) = corners ts from rfl, @snapFrom_id _ b _ _ (by rw [List.nil_append]; exact hd)]
  exact triples_corners ts

/-- **C143.**  The points of the mesh are corners of the triangles, two of them compare equal only if they are the same point, and every
half-edge starts at a point that compares equal to its corner. -/
theorem C143_points (b : BEq (Vec T 3)) (hr : ∀ p, b.beq p p = true) (hs : ∀ p q, b.beq p q = b.beq q p) (dbg : Bool) (M w : Nat)
    (ts : List (Vec T 3 × Vec T 3 × Vec T 3)) (hM : 3 * ts.length < M) (m : HalfedgeMesh (Vec T 3))
    (hm : buildMeshWith b dbg M w ts = .ok m) :
    (∀ p ∈ m.points, p ∈ corners ts) ∧ m.points.Nodup ∧ (∀ p ∈ m.points, ∀ q ∈ m.points, b.beq p q = true → p = q) ∧
    ∀ k (hk : k < (corners ts).length), ∃ h p, vecGet m.halfedges k = .ok h ∧ h.idx = k ∧ m.heVector h = .ok p ∧
      b.beq p (corners ts)[k] = true := by
  have hb : ∃ o, m = meshOfO o (@weld _ b (corners ts)).1 (@weld _ b (corners ts)).2 := by
    obtain ⟨o, _, h1, h2⟩ := @buildMesh_any T _ _ _ _ _ _ _ _ b ts M w hM
    cases dbg with
    | false => exact ⟨o, by rw [buildMeshWith, h1] at hm; cases hm; rfl⟩
    | true =>
      rcases h2 with ⟨h2, _⟩ | h2
      · exact ⟨o, by rw [buildMeshWith, h2] at hm; cases hm; rfl⟩
      · rw [buildMeshWith, h2] at hm; cases hm
  obtain ⟨o, rfl⟩ := hb
  have hk : KeptApart b (@weld _ b (corners ts)).1 := by
    classical
    exact (weldFold_snap b ⟨fun p q => decide (p = q)⟩ (by simp) hr (corners ts) ([], []) List.Pairwise.nil).2
  obtain ⟨h1, h2⟩ := @weld_any _ b (corners ts)
  refine ⟨h1, hk.nodup hr, ?_, ?_⟩
  · intro p hp q hq hpq
    by_contra hne
    have : Std.Symm fun p q : Vec T 3 => b.beq p q = false := ⟨fun x y hxy => by rw [hs]; exact hxy⟩
    rw [List.Pairwise.forall hk hp hq hne] at hpq
    cases hpq
  · intro k hkl
    have hkw : k < (@weld _ b (corners ts)).2.length := by rw [@weld_length _ b]; exact hkl
    obtain ⟨p, hp, he⟩ := h2 k hkl
    refine ⟨_, p, meshOfO_he _ _ _ hkw, rfl, ?_, ?_⟩
    · rw [meshOfO_heVector _ _ _ (@weld_welded _ b _) hkw]
      exact vecGet_of_getElem? hp
    · rcases he with rfl | he
      · exact hr _
      · exact he
end

/-! ### Real coordinates -/

/-- Points that agree up to `eps` in every coordinate. -/
@[instance_reducible] noncomputable def nearBEq {D : Nat} (eps : ℝ) : BEq (Vec ℝ D) := ⟨fun a b => decide (∀ i, |a i - b i| ≤ eps)⟩

theorem nearBEq_iff {D : Nat} {eps : ℝ} {a b : Vec ℝ D} : (nearBEq eps).beq a b = true ↔ ∀ i, |a i - b i| ≤ eps := by
  unfold nearBEq; simp

theorem nearBEq_refl {D : Nat} {eps : ℝ} (h : 0 ≤ eps) (a : Vec ℝ D) : (nearBEq eps).beq a a = true := by
  rw [nearBEq_iff]; simpa using fun _ => h

theorem nearBEq_symm {D : Nat} {eps : ℝ} (a b : Vec ℝ D) : (nearBEq eps).beq a b = (nearBEq eps).beq b a := by
  rw [Bool.eq_iff_iff, nearBEq_iff, nearBEq_iff]
  simp only [abs_sub_comm]

/-- **C143.**  With such a comparison building never fails, not even in a debug build, and the finished mesh is valid when no directed edge
of the replaced triangles is used more than twice. -/
theorem C143_succeeds (b : BEq (Vec ℝ 3)) (hr : ∀ p, b.beq p p = true) (hs : ∀ p q, b.beq p q = b.beq q p) (dbg dbg' : Bool) (M w : Nat)
    (ts : List (Vec ℝ 3 × Vec ℝ 3 × Vec ℝ 3)) (hM : 3 * ts.length < M) :
    ∃ m, buildMeshWith b dbg M w ts = .ok m ∧
      (m.isValid dbg' M = .ok true ↔ ∀ x : Vec ℝ 3 × Vec ℝ 3, ¬ [x, x, x].Sublist (directedEdges (@snapTriangles _ b ts))) := by
  classical
  let e : BEq (Vec ℝ 3) := instBEqOfDecidableEq
  have h3 : 3 * (@snapTriangles _ b ts).length < M := by rw [@snapTriangles_length _ b]; exact hM
  obtain ⟨m, hm, _⟩ := C48_build_succeeds dbg M w (@snapTriangles _ b ts) h3
  refine ⟨m, (C143_mesh b e (fun p q => beq_iff_eq) hr hs dbg M w ts hM).trans hm, ?_⟩
  obtain ⟨h1, h2⟩ := C48_is_valid dbg dbg' M w _ h3 m hm
  have hc : ∀ l : List (Vec ℝ 3 × Vec ℝ 3), (∀ x, @List.count _ (@instBEqProd _ _ e e) x l ≤ 2) ↔ ∀ x, ¬ [x, x, x].Sublist l := by
    intro l
    refine forall_congr' fun x => ?_
    have := @List.replicate_sublist_iff _ (@instBEqProd _ _ e e) inferInstance 3 x l
    rw [show [x, x, x] = List.replicate 3 x from rfl, this]
    omega
  rw [← hc]
  refine ⟨fun h => ?_, h1⟩
  by_contra hc
  rw [h2 hc] at h
  cases dbg' <;> cases h

/-- **C143.**  Comparing with a tolerance moves no corner by more than the tolerance in any coordinate, and keeps the points of the mesh
more than the tolerance apart in some coordinate. -/
theorem C143_tolerance (eps : ℝ) (h0 : 0 ≤ eps) (dbg : Bool) (M w : Nat) (ts : List (Vec ℝ 3 × Vec ℝ 3 × Vec ℝ 3)) (hM : 3 * ts.length < M) :
    ∃ m, buildMeshWith (nearBEq eps) dbg M w ts = .ok m ∧
      (∀ p ∈ m.points, ∀ q ∈ m.points, p ≠ q → ∃ i, eps < |p i - q i|) ∧
      ∀ k (hk : k < (corners ts).length), ∃ h p, vecGet m.halfedges k = .ok h ∧ h.idx = k ∧ m.heVector h = .ok p ∧
        ∀ i, |p i - (corners ts)[k] i| ≤ eps := by
  obtain ⟨m, hm, _⟩ := C143_succeeds (nearBEq eps) (nearBEq_refl h0) nearBEq_symm dbg dbg M w ts hM
  obtain ⟨_, _, h1, h2⟩ := C143_points (nearBEq eps) (nearBEq_refl h0) nearBEq_symm dbg M w ts hM m hm
  refine ⟨m, hm, ?_, ?_⟩
  · intro p hp q hq hpq
    by_contra hc
    push Not at hc
    exact hpq (h1 p hp q hq (nearBEq_iff.2 hc))
  · intro k hk
    obtain ⟨h, p, e1, e2, e3, e4⟩ := h2 k hk
    exact ⟨h, p, e1, e2, e3, nearBEq_iff.1 e4⟩

/-- **C143.**  When different corners differ by more than the tolerance in some coordinate, the tolerance makes no difference. -/
theorem C143_tolerance_same (eps : ℝ) (h0 : 0 ≤ eps) (e : BEq (Vec ℝ 3)) (he : ∀ p q, e.beq p q = true ↔ p = q) (dbg : Bool) (M w : Nat)
    (ts : List (Vec ℝ 3 × Vec ℝ 3 × Vec ℝ 3)) (hM : 3 * ts.length < M)
    (hd : ∀ p ∈ corners ts, ∀ q ∈ corners ts, p ≠ q → ∃ i, eps < |p i - q i|) :
    buildMeshWith (nearBEq eps) dbg M w ts = buildMeshWith e dbg M w ts := by
  refine C143_same _ e he (nearBEq_refl h0) nearBEq_symm dbg M w ts hM ?_
  intro p hp q hq hpq
  by_contra hne
  obtain ⟨i, hi⟩ := hd p hp q hq hne
  exact absurd (nearBEq_iff.1 hpq i) (not_le.2 hi)

/-! ### What does not hold -/

/-- Points with rational coordinates that agree up to 1 in every coordinate. -/
@[instance_reducible] def oneBEq : BEq (Vec ℚ 3) := ⟨fun a b => decide (∀ i, |a i - b i| ≤ 1)⟩

/-- Corners that compare equal need not share a vertex, corners that share a vertex need not compare equal, and the order of the triangles
decides how many vertices there are. -/
theorem C143_counterexample :
    (∃ (t : Vec ℚ 3 × Vec ℚ 3 × Vec ℚ 3) (m : HalfedgeMesh (Vec ℚ 3)), @addTriangles _ oneBEq true 100 [t] = .ok m ∧
      oneBEq.beq t.2.1 t.2.2 = true ∧ ∀ h1 h2, vecGet m.halfedges 1 = .ok h1 → vecGet m.halfedges 2 = .ok h2 → h1.vertex ≠ h2.vertex) ∧
    (∃ (t : Vec ℚ 3 × Vec ℚ 3 × Vec ℚ 3) (m : HalfedgeMesh (Vec ℚ 3)), @addTriangles _ oneBEq true 100 [t] = .ok m ∧
      oneBEq.beq t.2.1 t.2.2 = false ∧ ∀ h1 h2, vecGet m.halfedges 1 = .ok h1 → vecGet m.halfedges 2 = .ok h2 → h1.vertex = h2.vertex) ∧
    ∃ (t u : Vec ℚ 3 × Vec ℚ 3 × Vec ℚ 3) (m m' : HalfedgeMesh (Vec ℚ 3)), @addTriangles _ oneBEq true 100 [t, u] = .ok m ∧
      @addTriangles _ oneBEq true 100 [u, t] = .ok m' ∧ m.points.length ≠ m'.points.length := by
  have key : ∀ ts : List (Vec ℚ 3 × Vec ℚ 3 × Vec ℚ 3), 3 * ts.length < 100 →
      @addTriangles _ oneBEq true 100 ts = .ok (meshOf 100 (@weld _ oneBEq (corners ts)).1 (@weld _ oneBEq (corners ts)).2) :=
    fun ts h => @addTriangles_eq _ oneBEq true 100 ts h
  refine ⟨⟨(![0, 0, 0], ![2, 0, 0], ![1, 0, 0]), _, key _ (by simp), by decide +kernel, ?_⟩,
    ⟨(![1, 0, 0], ![2, 0, 0], ![0, 0, 0]), _, key _ (by simp), by decide +kernel, ?_⟩,
    ⟨(![0, 0, 0], ![0, 5, 0], ![2, 0, 0]), (![1, 0, 0], ![0, 5, 0], ![0, 0, 5]), _, _, key _ (by simp), key _ (by simp), ?_⟩⟩
  · intro h1 h2 e1 e2
    have hw : (@weld _ oneBEq (corners [((![0, 0, 0] : Vec ℚ 3), (![2, 0, 0] : Vec ℚ 3), (![1, 0, 0] : Vec ℚ 3))])).2 = [0, 1, 0] := by
      decide +kernel
    rw [hw] at e1 e2
    cases e1; cases e2
    decide
  · intro h1 h2 e1 e2
    have hw : (@weld _ oneBEq (corners [((![1, 0, 0] : Vec ℚ 3), (![2, 0, 0] : Vec ℚ 3), (![0, 0, 0] : Vec ℚ 3))])).2 = [0, 0, 0] := by
      decide +kernel
    rw [hw] at e1 e2
    cases e1; cases e2
    decide
  · show (@weld _ oneBEq _).1.length ≠ (@weld _ oneBEq _).1.length
    decide +kernel

section Examples
/-- A square of two triangles whose shared corners are given with different rounding errors. -/
noncomputable def sloppySquare : List (Vec ℝ 3 × Vec ℝ 3 × Vec ℝ 3) :=
  [(![0, 0, 0], ![1, 0, 0], ![1, 1, 0]), (![1 / 1000, 0, 0], ![1, 999 / 1000, 0], ![0, 1, 0])]

/-- With a tolerance the two triangles are joined; the mesh is that of the repaired triangles. -/
example : @snapTriangles _ (nearBEq (1 / 100)) sloppySquare = [(![0, 0, 0], ![1, 0, 0], ![1, 1, 0]), (![0, 0, 0], ![1, 1, 0], ![0, 1, 0])] := by
  have n : ∀ a b : Vec ℝ 3, (∃ i, 1 / 100 < |a i - b i|) → (nearBEq (1 / 100)).beq a b = false := by
    rintro a b ⟨i, hi⟩
    rw [← Bool.not_eq_true, nearBEq_iff]
    exact fun h => absurd (h i) (not_le.2 hi)
  have y : ∀ a b : Vec ℝ 3, (∀ i, |a i - b i| ≤ 1 / 100) → (nearBEq (1 / 100)).beq a b = true := fun a b h => nearBEq_iff.2 h
  have e1 := n ![0, 0, 0] ![1, 0, 0] ⟨0, by norm_num⟩
  have e2 := n ![0, 0, 0] ![1, 1, 0] ⟨0, by norm_num⟩
  have e3 := n ![1, 0, 0] ![1, 1, 0] ⟨1, by norm_num⟩
  have e4 := y ![0, 0, 0] ![1 / 1000, 0, 0] (by intro i; fin_cases i <;> norm_num)
  have e5 := n ![0, 0, 0] ![1, 999 / 1000, 0] ⟨0, by norm_num⟩
  have e6 := n ![1, 0, 0] ![1, 999 / 1000, 0] ⟨1, by norm_num⟩
  have e7 := y ![1, 1, 0] ![1, 999 / 1000, 0] (by intro i; fin_cases i <;> norm_num)
  have e8 := n ![0, 0, 0] ![0, 1, 0] ⟨1, by norm_num⟩
  have e9 := n ![1, 0, 0] ![0, 1, 0] ⟨0, by norm_num⟩
  have e10 := n ![1, 1, 0] ![0, 1, 0] ⟨0, by norm_num⟩
  unfold snapTriangles sloppySquare
  simp only [List.flatMap_cons, List.flatMap_nil, List.cons_append, List.nil_append, snapFrom, List.find?, e1, e2, e3, e4, e5, e6, e7, e8, e9, e10,
    triples]

example : ∃ m, buildMeshWith (nearBEq (1 / 100)) true (2 ^ 64) 64 sloppySquare = .ok m ∧
    (∀ p ∈ m.points, ∀ q ∈ m.points, p ≠ q → ∃ i, 1 / 100 < |p i - q i|) ∧ ∃ h p, vecGet m.halfedges 4 = .ok h ∧ h.idx = 4 ∧
      m.heVector h = .ok p ∧ ∀ i, |p i - (![1, 999 / 1000, 0] : Vec ℝ 3) i| ≤ 1 / 100 := by
  obtain ⟨m, h1, h2, h3⟩ := C143_tolerance (1 / 100) (by norm_num) true (2 ^ 64) 64 sloppySquare (by simp [sloppySquare])
  exact ⟨m, h1, h2, h3 4 (by simp [sloppySquare, corners])⟩

noncomputable example (e : BEq (Vec ℝ 3)) (he : ∀ p q, e.beq p q = true ↔ p = q) :
    buildMeshWith (nearBEq (1 / 100)) true (2 ^ 64) 64 sloppySquare =
      buildMeshWith e true (2 ^ 64) 64 (@snapTriangles _ (nearBEq (1 / 100)) sloppySquare) :=
  C143_mesh _ e he (nearBEq_refl (by norm_num)) nearBEq_symm true _ 64 _ (by simp [sloppySquare])

/-- With a smaller tolerance the corners stay apart. -/
example (e : BEq (Vec ℝ 3)) (he : ∀ p q, e.beq p q = true ↔ p = q) :
    buildMeshWith (nearBEq (1 / 10000)) true (2 ^ 64) 64 sloppySquare = buildMeshWith e true (2 ^ 64) 64 sloppySquare := by
  refine C143_tolerance_same _ (by norm_num) e he true _ 64 _ (by simp [sloppySquare]) ?_
  intro p hp q hq hpq
  simp only [sloppySquare, corners, List.flatMap_cons, List.flatMap_nil, List.cons_append, List.nil_append, List.append_nil, List.mem_cons,
    List.not_mem_nil, or_false] at hp hq
  by_contra hc
  push Not at hc
  have h0 := hc 0
  have h1 := hc 1
  rcases hp with rfl | rfl | rfl | rfl | rfl | rfl <;> rcases hq with rfl | rfl | rfl | rfl | rfl | rfl <;>
    first
      | exact hpq rfl
      | (norm_num at h0; done)
      | norm_num at h1

theorem sloppy_refl (p : Vec ℝ 3) : (nearBEq (1 / 100)).beq p p = true := nearBEq_refl (by norm_num) p

example : ∃ m, buildMeshWith (nearBEq (1 / 100)) true (2 ^ 64) 64 sloppySquare = .ok m ∧ (m.isValid true (2 ^ 64) = .ok true ↔
    ∀ x : Vec ℝ 3 × Vec ℝ 3, ¬ [x, x, x].Sublist (directedEdges (@snapTriangles _ (nearBEq (1 / 100)) sloppySquare))) :=
  C143_succeeds _ sloppy_refl nearBEq_symm true true _ 64 _ (by simp [sloppySquare])

/-- Four of the six corners are kept. -/
example (m : HalfedgeMesh (Vec ℝ 3)) (hm : buildMeshWith (nearBEq (1 / 100)) true (2 ^ 64) 64 sloppySquare = .ok m) :
    m.points.Nodup ∧ ¬ ((![1, 1, 0] : Vec ℝ 3) ∈ m.points ∧ ![1, 999 / 1000, 0] ∈ m.points) := by
  obtain ⟨_, h1, h2, _⟩ := C143_points _ sloppy_refl nearBEq_symm true (2 ^ 64) 64 sloppySquare (by simp [sloppySquare]) m hm
  refine ⟨h1, fun h => ?_⟩
  have := congrFun (h2 _ h.1 _ h.2 (nearBEq_iff.2 (by intro i; fin_cases i <;> norm_num))) 1
  norm_num at this

/-- One triangle with corners far apart. -/
example (e : BEq (Vec ℝ 3)) (he : ∀ p q, e.beq p q = true ↔ p = q) :
    buildMeshWith (nearBEq (1 / 100)) true (2 ^ 64) 64 [(![0, 0, 0], ![1, 0, 0], ![0, 1, 0])] =
      buildMeshWith e true (2 ^ 64) 64 [(![0, 0, 0], ![1, 0, 0], ![0, 1, 0])] := by
  refine C143_same _ e he sloppy_refl nearBEq_symm true _ 64 _ (by simp) ?_
  intro p hp q hq hpq
  have h0 := nearBEq_iff.1 hpq 0
  have h1 := nearBEq_iff.1 hpq 1
  simp only [corners, List.flatMap_cons, List.flatMap_nil, List.append_nil, List.mem_cons, List.not_mem_nil, or_false] at hp hq
  rcases hp with rfl | rfl | rfl <;> rcases hq with rfl | rfl | rfl <;>
    first
      | rfl
      | (norm_num at h0; done)
      | norm_num at h1
end Examples
end Verif
