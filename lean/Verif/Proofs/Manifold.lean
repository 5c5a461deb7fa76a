import Verif.Spec.Manifold
import Verif.Props.Volume

set_option linter.unusedSectionVars false

/-
Walks across edges, for triangles numbered by arbitrary names.
-/
namespace Verif
open Spec
open Relation (ReflTransGen)

section
variable {V W ι : Type}

theorem walk_lift {α β : Type} {r : α → α → Prop} {q : β → β → Prop} (f : α → β) (h : ∀ a b, r a b → q (f a) (f b)) {a b : α}
    (w : ReflTransGen r a b) : ReflTransGen q (f a) (f b) := by
  induction w with
  | refl => exact .refl
  | tail _ s ih => exact ih.tail (h _ _ s)

theorem walk_symm {α : Type} {r : α → α → Prop} (h : ∀ a b, r a b → r b a) {a b : α} (w : ReflTransGen r a b) : ReflTransGen r b a := by
  induction w with
  | refl => exact .refl
  | tail _ s ih => exact ReflTransGen.head (h _ _ s) ih

theorem edgesOf_eq (t : V × V × V) : directedEdges [t] = triEdges t := by simp [directedEdges, triEdges]

theorem mem_cornersOf {t : V × V × V} {v : V} : v ∈ corners [t] ↔ ∃ b, (v, b) ∈ triEdges t := by
  obtain ⟨x, y, z⟩ := t
  simp only [corners, triEdges, List.flatMap_cons, List.flatMap_nil, List.append_nil, List.mem_cons, List.not_mem_nil, or_false, Prod.mk.injEq]
  constructor
  · rintro (rfl | rfl | rfl)
    exacts [⟨y, by simp⟩, ⟨z, by simp⟩, ⟨x, by simp⟩]
  · rintro ⟨b, h⟩; tauto

theorem _root_.Verif.Spec.EdgeAt.symm {v : V} {t t' : V × V × V} (h : EdgeAt v t t') : EdgeAt v t' t := by
  obtain ⟨b, h | h⟩ := h
  · exact ⟨b, .inr ⟨h.2, h.1⟩⟩
  · exact ⟨b, .inl ⟨h.2, h.1⟩⟩

/-- Walks between names, across edges at `v`. -/
def Link (ids : List ι) (tri : ι → V × V × V) (v : V) (x y : ι) : Prop :=
  ReflTransGen (fun x y => (x ∈ ids ∧ y ∈ ids) ∧ EdgeAt v (tri x) (tri y)) x y

theorem Link.symm {ids : List ι} {tri : ι → V × V × V} {v : V} {x y : ι} (h : Link ids tri v x y) : Link ids tri v y x :=
  walk_symm (fun _ _ h => ⟨h.1.symm, h.2.symm⟩) h

theorem Link.trans {ids : List ι} {tri : ι → V × V × V} {v : V} {x y z : ι} (h : Link ids tri v x y) (h' : Link ids tri v y z) :
    Link ids tri v x z := ReflTransGen.trans h h'

/-- Walks between names. -/
def Walk (ids : List ι) (tri : ι → V × V × V) (x y : ι) : Prop :=
  ReflTransGen (fun x y => (x ∈ ids ∧ y ∈ ids) ∧ ∃ v, EdgeAt v (tri x) (tri y)) x y

theorem Walk.symm {ids : List ι} {tri : ι → V × V × V} {x y : ι} (h : Walk ids tri x y) : Walk ids tri y x :=
  walk_symm (fun _ _ h => ⟨h.1.symm, h.2.imp fun _ h => h.symm⟩) h

theorem Walk.trans {ids : List ι} {tri : ι → V × V × V} {x y z : ι} (h : Walk ids tri x y) (h' : Walk ids tri y z) :
    Walk ids tri x z := ReflTransGen.trans h h'

theorem Link.walk {ids : List ι} {tri : ι → V × V × V} {v : V} {x y : ι} (h : Link ids tri v x y) : Walk ids tri x y :=
  walk_lift id (fun _ _ h => ⟨h.1, v, h.2⟩) h

/-- One step at either end of the common edge. -/
theorem link_step {ids : List ι} {tri : ι → V × V × V} {x y : ι} (hx : x ∈ ids) (hy : y ∈ ids) {a b : V} (h : (a, b) ∈ triEdges (tri x))
    (h' : (b, a) ∈ triEdges (tri y)) : Link ids tri a x y ∧ Link ids tri b x y := by
  constructor
  · exact ReflTransGen.single ⟨⟨hx, hy⟩, b, .inl ⟨by rwa [edgesOf_eq], by rwa [edgesOf_eq]⟩⟩
  · exact ReflTransGen.single ⟨⟨hx, hy⟩, a, .inr ⟨by rwa [edgesOf_eq], by rwa [edgesOf_eq]⟩⟩

theorem oneFan_of_ids {ids : List ι} {tri : ι → V × V × V} {v : V} (x0 : ι)
    (h : ∀ x ∈ ids, ∀ b, (v, b) ∈ triEdges (tri x) → Link ids tri v x0 x) : OneFan (ids.map tri) v := by
  intro t ht t' ht' hv hv'
  obtain ⟨x, hx, rfl⟩ := List.mem_map.1 ht
  obtain ⟨y, hy, rfl⟩ := List.mem_map.1 ht'
  obtain ⟨b, hb⟩ := mem_cornersOf.1 hv
  obtain ⟨c, hc⟩ := mem_cornersOf.1 hv'
  exact walk_lift tri (fun a b h => ⟨List.mem_map_of_mem h.1.2, h.2⟩) ((h x hx b hb).symm.trans (h y hy c hc))

theorem onePiece_of_ids {ids : List ι} {tri : ι → V × V × V} (x0 : ι) (h : ∀ x ∈ ids, Walk ids tri x0 x) : OnePiece (ids.map tri) := by
  intro t ht t' ht'
  obtain ⟨x, hx, rfl⟩ := List.mem_map.1 ht
  obtain ⟨y, hy, rfl⟩ := List.mem_map.1 ht'
  exact walk_lift tri (fun a b h => ⟨List.mem_map_of_mem h.1.2, h.2⟩) ((h x hx).symm.trans (h y hy))

/-! ### Reversal and renaming -/

theorem edges_reversed {t : V × V × V} {a b : V} : (a, b) ∈ triEdges (reversed t) ↔ (b, a) ∈ triEdges t := by
  obtain ⟨x, y, z⟩ := t
  simp [triEdges, reversed]; tauto

theorem _root_.Verif.Spec.EdgeAt.reversed {v : V} {t t' : V × V × V} (h : EdgeAt v t t') : EdgeAt v (reversed t) (reversed t') := by
  obtain ⟨b, h⟩ := h
  refine ⟨b, ?_⟩
  simp only [edgesOf_eq, edges_reversed] at *
  tauto

theorem _root_.Verif.Spec.OneFan.reversed {ts : List (V × V × V)} {v : V} (h : OneFan ts v) : OneFan (ts.map reversed) v := by
  intro t ht t' ht' hv hv'
  obtain ⟨x, hx, rfl⟩ := List.mem_map.1 ht
  obtain ⟨y, hy, rfl⟩ := List.mem_map.1 ht'
  refine walk_lift Spec.reversed (fun a b h => ⟨List.mem_map_of_mem h.1, h.2.reversed⟩) (h x hx y hy ?_ ?_)
  · simpa [corners, Spec.reversed, or_comm, or_left_comm, or_assoc] using hv
  · simpa [corners, Spec.reversed, or_comm, or_left_comm, or_assoc] using hv'

theorem _root_.Verif.Spec.OnePiece.reversed {ts : List (V × V × V)} (h : OnePiece ts) : OnePiece (ts.map reversed) := by
  intro t ht t' ht'
  obtain ⟨x, hx, rfl⟩ := List.mem_map.1 ht
  obtain ⟨y, hy, rfl⟩ := List.mem_map.1 ht'
  exact walk_lift Spec.reversed (fun a b h => ⟨List.mem_map_of_mem h.1, h.2.imp fun _ h => h.reversed⟩) (h x hx y hy)

theorem _root_.Verif.Spec.EdgeAt.map (f : V → W) {v : V} {t t' : V × V × V} (h : EdgeAt v t t') : EdgeAt (f v) (mapTriangle f t) (mapTriangle f t') := by
  have k : ∀ (t : V × V × V) (a b : V), (a, b) ∈ triEdges t → (f a, f b) ∈ triEdges (mapTriangle f t) := by
    intro t a b h
    simp only [triEdges, List.mem_cons, List.not_mem_nil, or_false, Prod.mk.injEq] at h
    rcases h with ⟨rfl, rfl⟩ | ⟨rfl, rfl⟩ | ⟨rfl, rfl⟩ <;> simp [triEdges, mapTriangle]
  obtain ⟨b, h⟩ := h
  refine ⟨f b, ?_⟩
  simp only [edgesOf_eq] at *
  rcases h with h | h
  · exact .inl ⟨k _ _ _ h.1, k _ _ _ h.2⟩
  · exact .inr ⟨k _ _ _ h.1, k _ _ _ h.2⟩

theorem _root_.Verif.Spec.OnePiece.map (f : V → W) {ts : List (V × V × V)} (h : OnePiece ts) : OnePiece (ts.map (mapTriangle f)) := by
  intro t ht t' ht'
  obtain ⟨x, hx, rfl⟩ := List.mem_map.1 ht
  obtain ⟨y, hy, rfl⟩ := List.mem_map.1 ht'
  exact walk_lift (mapTriangle f) (fun a b h => ⟨List.mem_map_of_mem h.1, h.2.imp' f fun _ h => h.map f⟩) (h x hx y hy)

theorem _root_.Verif.Spec.OneFan.map (f : V → W) {ts : List (V × V × V)} (h : ∀ v, OneFan ts v)
    (hf : ∀ a ∈ corners ts, ∀ b ∈ corners ts, f a = f b → a = b) (w : W) : OneFan (ts.map (mapTriangle f)) w := by
  intro t ht t' ht' hv hv'
  obtain ⟨x, hx, rfl⟩ := List.mem_map.1 ht
  obtain ⟨y, hy, rfl⟩ := List.mem_map.1 ht'
  have k : ∀ t ∈ ts, w ∈ corners [mapTriangle f t] → ∃ v ∈ corners [t], f v = w ∧ v ∈ corners ts := by
    intro t ht hw
    simp only [corners, List.flatMap_cons, List.flatMap_nil, List.append_nil, mapTriangle, List.mem_cons, List.not_mem_nil, or_false] at hw
    have hc : ∀ v, v ∈ corners [t] → v ∈ corners ts := by
      intro v hv
      exact List.mem_flatMap.2 ⟨t, ht, by simpa [corners] using hv⟩
    rcases hw with rfl | rfl | rfl
    · exact ⟨t.1, by simp [corners], rfl, hc _ (by simp [corners])⟩
    · exact ⟨t.2.1, by simp [corners], rfl, hc _ (by simp [corners])⟩
    · exact ⟨t.2.2, by simp [corners], rfl, hc _ (by simp [corners])⟩
  obtain ⟨v, hv1, rfl, hvt⟩ := k x hx hv
  obtain ⟨v', hv2, e, hvt'⟩ := k y hy hv'
  obtain rfl := hf _ hvt _ hvt' e.symm
  exact walk_lift (mapTriangle f) (fun a b h => ⟨List.mem_map_of_mem h.1, h.2.map f⟩) (h v x hx y hy hv1 hv2)

/-- A chain of links. -/
theorem link_chain {ids : List ι} {tri : ι → V × V × V} {v : V} (f : ℕ → ι) {s e : ℕ}
    (h : ∀ j, s ≤ j → j < e → Link ids tri v (f j) (f (j + 1))) : ∀ j, s ≤ j → j ≤ e → Link ids tri v (f s) (f j) := by
  intro j hs
  induction j, hs using Nat.le_induction with
  | base => intro _; exact ReflTransGen.refl
  | succ k hk ih => intro hke; exact (ih (by omega)).trans (h k hk (by omega))
end
end Verif
