import Verif.Proofs.Watertight
import Verif.Props.Inscribed
import Verif.Props.Volume
import Verif.Proofs.ExactNormals
import Mathlib.Analysis.Convex.Topology

set_option linter.unusedSectionVars false

/-
C136: the meshes of the solids have no holes.
-/
namespace Verif
open Spec Matrix Real

/-! ### Surfaces of convex bodies -/

theorem side_line (t : Vec ℝ 3 × Vec ℝ 3 × Vec ℝ 3) (x y : Vec ℝ 3) (a b : ℝ) (h : a + b = 1) :
    side t (a • x + b • y) = a * side t x + b * side t y := by
  obtain ⟨p, q, r⟩ := t
  obtain rfl : a = 1 - b := by linarith
  simp only [side_eq, Pi.add_apply, Pi.smul_apply, smul_eq_mul]; ring

theorem side_ray (t : Vec ℝ 3 × Vec ℝ 3 × Vec ℝ 3) (x d : Vec ℝ 3) (s : ℝ) :
    side t (x + s • d) = side t x + s * (side t (x + d) - side t x) := by
  obtain ⟨p, q, r⟩ := t
  simp only [side_eq, Pi.add_apply, Pi.smul_apply, smul_eq_mul]; ring

theorem side_continuous (t : Vec ℝ 3 × Vec ℝ 3 × Vec ℝ 3) : Continuous (side t) := by
  have : side t = fun x => -det3 (t.1 - x) (t.2.1 - x) (t.2.2 - x) := funext (side_det3 t)
  rw [this]
  simp only [det3, Pi.sub_apply]
  fun_prop

theorem side_flat {t : Vec ℝ 3 × Vec ℝ 3 × Vec ℝ 3} {x : Vec ℝ 3} (h : x ∈ flatTriangle t.1 t.2.1 t.2.2) : side t x = 0 := by
  obtain ⟨a, b, c, _, _, _, h1, rfl⟩ := h
  obtain ⟨p, q, r⟩ := t
  obtain rfl : a = 1 - b - c := by linarith
  simp only [side_eq, Pi.add_apply, Pi.smul_apply, smul_eq_mul]; ring

theorem flat_mem_convex {K : Set (Vec ℝ 3)} (hK : Convex ℝ K) {p q r x : Vec ℝ 3} (hp : p ∈ K) (hq : q ∈ K) (hr : r ∈ K)
    (hx : x ∈ flatTriangle p q r) : x ∈ K := by
  obtain ⟨a, b, c, ha, hb, hc, h1, rfl⟩ := hx
  have := hK.sum_mem (t := Finset.univ) (w := ![a, b, c]) (z := ![p, q, r])
    (by intro i _; fin_cases i <;> assumption) (by simpa [Fin.sum_univ_three] using h1) (by intro i _; fin_cases i <;> assumption)
  simpa [Fin.sum_univ_three] using this

section
variable {ts : List (Vec ℝ 3 × Vec ℝ 3 × Vec ℝ 3)} {c : Vec ℝ 3}

/-- The convex hull of the corners. -/
def hullOf (ts : List (Vec ℝ 3 × Vec ℝ 3 × Vec ℝ 3)) : Set (Vec ℝ 3) := convexHull ℝ {v | v ∈ corners ts}

theorem surface_sub_hull : surfaceOf ts ⊆ hullOf ts := by
  rintro x ⟨t, ht, hx⟩
  have hm : ∀ v ∈ [t.1, t.2.1, t.2.2], v ∈ hullOf ts := fun v hv =>
    subset_convexHull ℝ _ (List.mem_flatMap.2 ⟨t, ht, hv⟩)
  exact flat_mem_convex (convex_convexHull ℝ _) (hm _ (by simp)) (hm _ (by simp)) (hm _ (by simp)) hx

theorem hull_behind (hconv : ∀ t ∈ ts, ∀ v ∈ corners ts, side t v ≤ 0) {x : Vec ℝ 3} (hx : x ∈ hullOf ts) :
    ∀ t ∈ ts, side t x ≤ 0 := by
  intro t ht
  have : hullOf ts ⊆ {x | side t x ≤ 0} := by
    refine convexHull_min (fun v hv => hconv t ht v hv) ?_
    intro x hx y hy a b ha hb hab
    show side t _ ≤ 0
    rw [side_line t x y a b hab]
    exact add_nonpos (mul_nonpos_of_nonneg_of_nonpos ha hx) (mul_nonpos_of_nonneg_of_nonpos hb hy)
  exact this hx

variable (hne : ts ≠ []) (hnb : NoBoundary ts) (hc : ∀ t ∈ ts, side t c < 0) (hconv : ∀ t ∈ ts, ∀ v ∈ corners ts, side t v ≤ 0)
include hne hnb

theorem inside_hull {x : Vec ℝ 3} (hx : ∀ t ∈ ts, side t x < 0) : x ∈ hullOf ts := by
  have hd : (fun _ => 1 : Vec ℝ 3) ≠ 0 := fun h => one_ne_zero (congrFun h 0)
  obtain ⟨s, hs, h1⟩ := ray_hits hne hnb x hx _ hd
  obtain ⟨s', hs', h2⟩ := ray_hits hne hnb x hx _ (neg_ne_zero.2 hd)
  have := (convex_convexHull ℝ {v | v ∈ corners ts}) (surface_sub_hull h1) (surface_sub_hull h2)
    (show 0 ≤ s' / (s + s') by positivity) (show 0 ≤ s / (s + s') by positivity) (by field_simp; ring)
  have e : (s' / (s + s')) • (x + s • (fun _ => 1 : Vec ℝ 3)) + (s / (s + s')) • (x + s' • -(fun _ => 1 : Vec ℝ 3)) = x := by
    funext i
    simp only [Pi.add_apply, Pi.smul_apply, Pi.neg_apply, smul_eq_mul]
    field_simp
    ring
  rw [e] at this
  exact this

include hc hconv

theorem hull_interior : interior (hullOf ts) = {x | ∀ t ∈ ts, side t x < 0} := by
  apply Set.Subset.antisymm
  · intro x hx t ht
    have hle := hull_behind hconv (interior_subset hx) t ht
    refine hle.lt_of_ne fun h0 => ?_
    -- going on behind x away from c stays in the hull for a while
    have hcont : Continuous fun s : ℝ => x + s • (x - c) := by fun_prop
    have hopen := (isOpen_interior (s := hullOf ts)).preimage hcont
    have h0m : (0 : ℝ) ∈ (fun s : ℝ => x + s • (x - c)) ⁻¹' interior (hullOf ts) := by simpa using hx
    obtain ⟨ε, hε, hball⟩ := Metric.isOpen_iff.1 hopen 0 h0m
    have hm : ε / 2 ∈ Metric.ball (0 : ℝ) ε := by
      rw [Metric.mem_ball, dist_zero_right, Real.norm_of_nonneg (by linarith)]; linarith
    have h1 := hull_behind hconv (interior_subset (hball hm)) t ht
    have e : x + (ε / 2) • (x - c) = (1 + ε / 2) • x + (-(ε / 2)) • c := by
      funext i; simp only [Pi.add_apply, Pi.smul_apply, Pi.sub_apply, smul_eq_mul]; ring
    dsimp only at h1
    rw [e, side_line t x c _ _ (by ring), h0] at h1
    nlinarith [hc t ht]
  · refine interior_maximal (fun x hx => inside_hull hne hnb hx) ?_
    have : {x | ∀ t ∈ ts, side t x < 0} = ⋂ t ∈ {t | t ∈ ts}, {x | side t x < 0} := by ext; simp
    rw [this]
    exact (List.finite_toSet ts).isOpen_biInter fun t _ => isOpen_lt (side_continuous t) continuous_const

/-- The surface is the boundary of the convex hull of its corners. -/
theorem hull_frontier : surfaceOf ts = frontier (hullOf ts) := by
  have hcl : IsClosed (hullOf ts) := ((List.finite_toSet (corners ts)).isCompact_convexHull ℝ).isClosed
  rw [frontier, hcl.closure_eq, hull_interior hne hnb hc hconv]
  apply Set.Subset.antisymm
  · intro x hx
    refine ⟨surface_sub_hull hx, fun h => ?_⟩
    obtain ⟨t, ht, hx⟩ := hx
    have := h t ht
    rw [side_flat hx] at this
    exact lt_irrefl _ this
  · rintro x ⟨hx, hx'⟩
    simp only [Set.mem_ofPred_eq, not_forall, not_lt] at hx'
    obtain ⟨t', ht', h'⟩ := hx'
    have hbx := hull_behind hconv hx
    have h'0 : side t' x = 0 := le_antisymm (hbx t' ht') h'
    have hxc : x - c ≠ 0 := by
      intro h
      have : x = c := sub_eq_zero.1 h
      subst this
      linarith [hc t' ht']
    obtain ⟨s, hs, t, ht, hy⟩ := ray_hits hne hnb c hc _ hxc
    have e : c + s • (x - c) = (1 - s) • c + s • x := by
      funext i; simp only [Pi.add_apply, Pi.smul_apply, Pi.sub_apply, smul_eq_mul]; ring
    have h1 : s ≤ 1 := by
      have := hull_behind hconv (surface_sub_hull ⟨t, ht, hy⟩) t' ht'
      rw [e, side_line t' c x _ _ (by ring), h'0] at this
      nlinarith [hc t' ht']
    have h2 : 1 ≤ s := by
      have := side_flat hy
      rw [e, side_line t c x _ _ (by ring)] at this
      nlinarith [hc t ht, hbx t ht]
    have : s = 1 := le_antisymm h1 h2
    rw [this, one_smul, add_sub_cancel] at hy
    exact ⟨t, ht, hy⟩

/-- Every ray from a point inside leaves through exactly one point. -/
theorem hits_once {x : Vec ℝ 3} (hx : x ∈ interior (hullOf ts)) (d : Vec ℝ 3) (hd : d ≠ 0) : ∃! s, s ∈ hits (surfaceOf ts) x d := by
  rw [hull_interior hne hnb hc hconv] at hx
  obtain ⟨s, hs, hm⟩ := ray_hits hne hnb x hx d hd
  have key : ∀ s s' : ℝ, 0 < s → s < s' → x + s • d ∈ surfaceOf ts → x + s' • d ∈ surfaceOf ts → False := by
    rintro s s' hs hlt ⟨t, ht, hy⟩ hy'
    have h1 := side_flat hy
    have h2 := hull_behind hconv (surface_sub_hull hy') t ht
    rw [side_ray] at h1 h2
    have := hx t ht
    have h3 : 0 < side t (x + d) - side t x := by
      by_contra hcon
      nlinarith
    nlinarith
  refine ⟨s, ⟨hs, hm⟩, ?_⟩
  rintro s' ⟨hs', hm'⟩
  rcases lt_trichotomy s s' with h | h | h
  · exact (key s s' hs h hm hm').elim
  · exact h.symm
  · exact (key s' s hs' h hm' hm).elim

/-- From a point that is not inside some ray misses the surface. -/
theorem hits_none {x : Vec ℝ 3} (hx : x ∉ interior (hullOf ts)) : ∃ d ≠ 0, hits (surfaceOf ts) x d = ∅ := by
  rw [hull_interior hne hnb hc hconv] at hx
  simp only [Set.mem_ofPred_eq, not_forall, not_lt] at hx
  obtain ⟨t, ht, h⟩ := hx
  refine ⟨x - c, ?_, ?_⟩
  · intro e
    have : x = c := sub_eq_zero.1 e
    subst this
    linarith [hc t ht]
  · rw [Set.eq_empty_iff_forall_notMem]
    rintro s ⟨hs, hm⟩
    have := hull_behind hconv (surface_sub_hull hm) t ht
    have e : x + s • (x - c) = (1 + s) • x + (-s) • c := by
      funext i; simp only [Pi.add_apply, Pi.smul_apply, Pi.sub_apply, smul_eq_mul]; ring
    rw [e, side_line t x c _ _ (by ring)] at this
    nlinarith [hc t ht]
end

/-! ### Meshes -/

/-- The surface of the mesh is the boundary of the convex hull of its points, which has inner points; every ray from an inner point hits the
surface exactly once, and from every other point some ray misses it. -/
def Watertight (m : HalfedgeMesh (Vec ℝ 3)) : Prop :=
  (interior (convexHull ℝ {v | v ∈ m.points})).Nonempty ∧
  meshSurface m = frontier (convexHull ℝ {v | v ∈ m.points}) ∧
  (∀ x ∈ interior (convexHull ℝ {v | v ∈ m.points}), ∀ d, d ≠ 0 → ∃! s, s ∈ hits (meshSurface m) x d) ∧
  ∀ x ∉ interior (convexHull ℝ {v | v ∈ m.points}), ∃ d, d ≠ 0 ∧ hits (meshSurface m) x d = ∅

theorem surface_of_reads {m : HalfedgeMesh (Vec ℝ 3)} {ts : List (Vec ℝ 3 × Vec ℝ 3 × Vec ℝ 3)} (h : Reads m ts) :
    meshSurface m = surfaceOf ts := by
  ext x
  constructor
  · rintro ⟨f, hf, h0, h1, h2, p, q, r, e, e0, e1, e2, hx⟩
    obtain ⟨t, ht, g0, g1, g2, d, d0, d1, d2⟩ : ∃ t ∈ ts, ∃ h0 h1 h2, calcHalfedges m f = .ok [h0, h1, h2] ∧ m.heVector h0 = .ok t.1 ∧
        m.heVector h1 = .ok t.2.1 ∧ m.heVector h2 = .ok t.2.2 := by
      obtain ⟨i, hi⟩ := List.mem_iff_get.1 hf
      have h' := List.forall₂_iff_get.1 h
      have := h'.2 i i.2 (by rw [← h'.1]; exact i.2)
      rw [← hi]
      exact ⟨_, List.get_mem _ _, this⟩
    rw [e] at d
    obtain ⟨rfl, rfl, rfl⟩ : h0 = g0 ∧ h1 = g1 ∧ h2 = g2 := by simpa using Except.ok.inj d
    rw [e0] at d0; rw [e1] at d1; rw [e2] at d2
    refine ⟨t, ht, ?_⟩
    rw [← Except.ok.inj d0, ← Except.ok.inj d1, ← Except.ok.inj d2]
    exact hx
  · rintro ⟨t, ht, hx⟩
    obtain ⟨i, hi⟩ := List.mem_iff_get.1 ht
    have h' := List.forall₂_iff_get.1 h
    obtain ⟨h0, h1, h2, e, e0, e1, e2⟩ := h'.2 i (by rw [h'.1]; exact i.2) i.2
    rw [show ts.get ⟨i, i.2⟩ = t from hi] at e0 e1 e2
    exact ⟨_, List.get_mem _ _, h0, h1, h2, _, _, _, e, e0, e1, e2, hx⟩

section
variable [BEq (Vec ℝ 3)] [LawfulBEq (Vec ℝ 3)]

/-- **C136** Take any triangles without boundary (beside every edge there is a triangle that uses it the other way round).  Every ray from a point
strictly behind all facets of the mesh hits its surface. -/
theorem C136_hit (dbg : Bool) (M : Nat) (ts : List (Vec ℝ 3 × Vec ℝ 3 × Vec ℝ 3)) (hM : 3 * ts.length < M) (m : HalfedgeMesh (Vec ℝ 3))
    (hb : BuiltFrom dbg M ts m) (hne : ts ≠ []) (hnb : NoBoundary ts) (c : Vec ℝ 3) (hc : FacetsSatisfy m fun p q r => side (p, q, r) c < 0)
    (d : Vec ℝ 3) (hd : d ≠ 0) : (hits (meshSurface m) c d).Nonempty := by
  have hr := reads_of_built dbg M ts hM m hb
  rw [surface_of_reads hr]
  refine ray_hits hne hnb c (fun t ht => ?_) d hd
  obtain ⟨i, hi⟩ := List.mem_iff_get.1 ht
  have h' := List.forall₂_iff_get.1 hr
  obtain ⟨h0, h1, h2, e, e0, e1, e2⟩ := h'.2 i (by rw [h'.1]; exact i.2) i.2
  obtain ⟨g0, g1, g2, p, q, r, d, d0, d1, d2, hs⟩ := hc _ (List.get_mem m.facets ⟨i, by rw [h'.1]; exact i.2⟩)
  rw [e] at d
  obtain ⟨rfl, rfl, rfl⟩ : h0 = g0 ∧ h1 = g1 ∧ h2 = g2 := by simpa using Except.ok.inj d
  rw [e0] at d0; rw [e1] at d1; rw [e2] at d2
  rw [← Except.ok.inj d0, ← Except.ok.inj d1, ← Except.ok.inj d2] at hs
  rw [← hi]
  exact hs

/-- **C136** If moreover no vertex lies in front of a facet, the mesh is watertight. -/
theorem C136_convex (dbg : Bool) (M : Nat) (ts : List (Vec ℝ 3 × Vec ℝ 3 × Vec ℝ 3)) (hM : 3 * ts.length < M) (m : HalfedgeMesh (Vec ℝ 3))
    (hb : BuiltFrom dbg M ts m) (hne : ts ≠ []) (hnb : NoBoundary ts) (c : Vec ℝ 3) (hc : OutwardMesh m c) :
    Watertight m ∧ c ∈ interior (convexHull ℝ {v | v ∈ m.points}) ∧
      interior (convexHull ℝ {v | v ∈ m.points}) = {x | FacetsSatisfy m fun p q r => side (p, q, r) x < 0} := by
  have hr := reads_of_built dbg M ts hM m hb
  have h' := List.forall₂_iff_get.1 hr
  have hpts : {v | v ∈ m.points} = {v | v ∈ corners ts} := by
    ext v
    show v ∈ m.points ↔ v ∈ corners ts
    rw [(C43_vertices dbg M ts hM m hb).1, List.mem_eraseDups]
  have ho : ∀ t ∈ ts, side t c < 0 ∧ ∀ v ∈ corners ts, side t v ≤ 0 := by
    intro t ht
    obtain ⟨i, hi⟩ := List.mem_iff_get.1 ht
    obtain ⟨h0, h1, h2, e, e0, e1, e2⟩ := h'.2 i (by rw [h'.1]; exact i.2) i.2
    obtain ⟨g0, g1, g2, p, q, r, d, d0, d1, d2, hs⟩ := hc _ (List.get_mem m.facets ⟨i, by rw [h'.1]; exact i.2⟩)
    rw [e] at d
    obtain ⟨rfl, rfl, rfl⟩ : h0 = g0 ∧ h1 = g1 ∧ h2 = g2 := by simpa using Except.ok.inj d
    rw [e0] at d0; rw [e1] at d1; rw [e2] at d2
    rw [← Except.ok.inj d0, ← Except.ok.inj d1, ← Except.ok.inj d2] at hs
    rw [← hi]
    refine ⟨hs.1, fun v hv => hs.2 v ?_⟩
    have : v ∈ {v | v ∈ m.points} := by rw [hpts]; exact hv
    exact this
  have hin := hull_interior hne hnb (fun t ht => (ho t ht).1) (fun t ht => (ho t ht).2)
  have hcm : c ∈ interior (hullOf ts) := by rw [hin]; exact fun t ht => (ho t ht).1
  unfold Watertight
  rw [hpts, surface_of_reads hr]
  refine ⟨⟨⟨c, hcm⟩, hull_frontier hne hnb (fun t ht => (ho t ht).1) (fun t ht => (ho t ht).2),
    fun x hx d hd => hits_once hne hnb (fun t ht => (ho t ht).1) (fun t ht => (ho t ht).2) hx d hd,
    fun x hx => hits_none hne hnb (fun t ht => (ho t ht).1) (fun t ht => (ho t ht).2) hx⟩, hcm, ?_⟩
  show interior (hullOf ts) = _
  rw [hin]
  ext x
  constructor
  · intro hx f hf
    obtain ⟨t, ht, h0, h1, h2, e, e0, e1, e2⟩ := facet_corners dbg M ts hM m hb f hf
    exact ⟨h0, h1, h2, _, _, _, e, e0, e1, e2, hx t ht⟩
  · intro hx t ht
    obtain ⟨i, hi⟩ := List.mem_iff_get.1 ht
    obtain ⟨h0, h1, h2, e, e0, e1, e2⟩ := h'.2 i (by rw [h'.1]; exact i.2) i.2
    obtain ⟨g0, g1, g2, p, q, r, d, d0, d1, d2, hs⟩ := hx _ (List.get_mem m.facets ⟨i, by rw [h'.1]; exact i.2⟩)
    rw [e] at d
    obtain ⟨rfl, rfl, rfl⟩ : h0 = g0 ∧ h1 = g1 ∧ h2 = g2 := by simpa using Except.ok.inj d
    rw [e0] at d0; rw [e1] at d1; rw [e2] at d2
    rw [← Except.ok.inj d0, ← Except.ok.inj d1, ← Except.ok.inj d2] at hs
    rw [← hi]
    exact hs

theorem noBoundary_map {V W : Type} {ts : List (V × V × V)} (h : NoBoundary ts) (f : V → W) : NoBoundary (ts.map (mapTriangle f)) := by
  intro a b hab
  rw [directedEdges_map, List.mem_map] at hab ⊢
  obtain ⟨⟨u, v⟩, huv, e⟩ := hab
  simp only [Prod.map_apply, Prod.mk.injEq] at e
  exact ⟨(v, u), h u v huv, by simp [e.1, e.2]⟩

theorem noBoundary_reversed {V : Type} {ts : List (V × V × V)} (h : NoBoundary ts) : NoBoundary (ts.map reversed) := by
  intro a b hab
  have hab := (directedEdges_reversed ts).mem_iff.1 hab
  refine (directedEdges_reversed ts).mem_iff.2 ?_
  obtain ⟨⟨u, v⟩, huv, e⟩ := List.mem_map.1 hab
  simp only [Prod.swap_prod_mk, Prod.mk.injEq] at e
  exact List.mem_map.2 ⟨(v, u), h u v huv, by simp [e.1, e.2]⟩

theorem corner_points (dbg : Bool) (M : Nat) (ts : List (Vec ℝ 3 × Vec ℝ 3 × Vec ℝ 3)) (hM : 3 * ts.length < M) (m : HalfedgeMesh (Vec ℝ 3))
    (hb : BuiltFrom dbg M ts m) : {v | v ∈ m.points} = {v | v ∈ corners ts} := by
  ext v
  show v ∈ m.points ↔ v ∈ corners ts
  rw [(C43_vertices dbg M ts hM m hb).1, List.mem_eraseDups]

/-- The hull of the points of a mesh whose facets lie in a convex body lies in that body. -/
theorem hull_sub (dbg : Bool) (M : Nat) (ts : List (Vec ℝ 3 × Vec ℝ 3 × Vec ℝ 3)) (hM : 3 * ts.length < M) (m : HalfedgeMesh (Vec ℝ 3))
    (hb : BuiltFrom dbg M ts m) (B : Set (Vec ℝ 3)) (hB : ∀ p ∈ B, ∀ q ∈ B, flatTriangle p q q ⊆ B) (hs : meshSurface m ⊆ B) :
    convexHull ℝ {v | v ∈ m.points} ⊆ B := by
  rw [corner_points dbg M ts hM m hb]
  rw [surface_of_reads (reads_of_built dbg M ts hM m hb)] at hs
  refine convexHull_min ?_ ?_
  · intro v hv
    obtain ⟨t, ht, hv⟩ := List.mem_flatMap.1 hv
    refine hs ⟨t, ht, ?_⟩
    simp only [List.mem_cons, List.not_mem_nil, or_false] at hv
    rcases hv with rfl | rfl | rfl
    · exact ⟨1, 0, 0, by simp⟩
    · exact ⟨0, 1, 0, by simp⟩
    · exact ⟨0, 0, 1, by simp⟩
  · intro x hx y hy a b ha hb hab
    exact hB x hx y hy ⟨a, b, 0, ha, hb, le_refl _, by simpa using hab, by simp⟩

theorem surface_sub_of_facets {m : HalfedgeMesh (Vec ℝ 3)} {B : Set (Vec ℝ 3)} (h : FacetsSatisfy m fun p q r => flatTriangle p q r ⊆ B) :
    meshSurface m ⊆ B := by
  rintro x ⟨f, hf, h0, h1, h2, p, q, r, e, e0, e1, e2, hx⟩
  obtain ⟨g0, g1, g2, p', q', r', d, d0, d1, d2, hs⟩ := h f hf
  rw [e] at d
  obtain ⟨rfl, rfl, rfl⟩ : h0 = g0 ∧ h1 = g1 ∧ h2 = g2 := by simpa using Except.ok.inj d
  rw [e0] at d0; rw [e1] at d1; rw [e2] at d2
  rw [Except.ok.inj d0, Except.ok.inj d1, Except.ok.inj d2] at hx
  exact hs hx
end

section
variable [BEq (HMat ℝ)] [LawfulBEq (HMat ℝ)] [BEq (Vec ℝ 3)] [LawfulBEq (Vec ℝ 3)]

/-- A closed index buffer whose mesh is convex and oriented outward gives a watertight mesh between two bodies. -/
theorem watertight_build (dbg : Bool) (M w : Nat) (trafo : HMat ℝ) (A : Matrix (Fin 3) (Fin 3) ℝ) (b : Vec ℝ 3)
    (htr : ∀ p, transformVec p trafo = affine A b p) (points : List (Vec ℝ 3)) (idx : List Nat) (hM : idx.length < M)
    (m : HalfedgeMesh (Vec ℝ 3)) (hm : buildTriangleHalfedgeMesh dbg M w trafo points idx = .ok m)
    (hcl : ClosedOriented (triples idx)) (h0 : triples idx ≠ []) (c : Vec ℝ 3) (ho : OutwardMesh m c)
    (I B : Set (Vec ℝ 3)) (hI : FacetsSatisfy m fun p q r => flatTriangle p q r ⊆ B ∧ ∀ x ∈ I, side (p, q, r) x < 0)
    (hB : ∀ p ∈ B, ∀ q ∈ B, flatTriangle p q q ⊆ B) :
    Watertight m ∧ c ∈ interior (convexHull ℝ {v | v ∈ m.points}) ∧ I ⊆ interior (convexHull ℝ {v | v ∈ m.points}) ∧
      convexHull ℝ {v | v ∈ m.points} ⊆ B := by
  obtain ⟨hM', hb⟩ := built_placed dbg M w trafo A b htr points idx hM m hm
  set ts := ((triples idx).map fun t => mapTriangle (fun i => points.getD i 0) (reversed t)).map (mapTriangle (affine A b))
  have hnb : NoBoundary ts := by
    refine noBoundary_map ?_ _
    have := noBoundary_map (noBoundary_reversed hcl.2) (fun i => points.getD i 0)
    rwa [List.map_map] at this
  obtain ⟨h1, h2, h3⟩ := C136_convex dbg M ts hM' m hb (by simpa [ts] using h0) hnb c ho
  refine ⟨h1, h2, ?_, ?_⟩
  · rw [h3]
    intro x hx f hf
    obtain ⟨g0, g1, g2, p, q, r, d, d0, d1, d2, hs⟩ := hI f hf
    exact ⟨g0, g1, g2, p, q, r, d, d0, d1, d2, hs.2 x hx⟩
  · refine hull_sub dbg M ts hM' m hb B hB (surface_sub_of_facets fun f hf => ?_)
    obtain ⟨g0, g1, g2, p, q, r, d, d0, d1, d2, hs⟩ := hI f hf
    exact ⟨g0, g1, g2, p, q, r, d, d0, d1, d2, hs.1⟩

/-- **C136** (spheres) The mesh is watertight.  Seen from the centre there is exactly one point of the surface in every direction, at a distance
between `r cos(π/n) cos(π/(2p))` and `r`. -/
theorem C136_sphere (dbg : Bool) (M w : Nat) (b : SphereBuilder ℝ) (hp : 2 ≤ b.polarCount) (hn : 3 ≤ b.azimuthCount)
    (hM : 6 * b.azimuthCount * (b.polarCount - 1) < M) (hr : 0 < b.theSphere.radius) :
    ∃ m b', b.build dbg M w = .ok (m, b') ∧ Watertight m ∧
      (∀ x, Spec.dist x b.theSphere.origin < b.theSphere.radius * cos (π / b.azimuthCount) * cos (π / (2 * b.polarCount)) →
        x ∈ interior (convexHull ℝ {v | v ∈ m.points})) ∧
      (∀ x ∈ convexHull ℝ {v | v ∈ m.points}, Spec.dist x b.theSphere.origin ≤ b.theSphere.radius) ∧
      ∀ d, Spec.norm d = 1 → ∃ s, hits (meshSurface m) b.theSphere.origin d = {s} ∧
        b.theSphere.radius * cos (π / b.azimuthCount) * cos (π / (2 * b.polarCount)) ≤ s ∧ s ≤ b.theSphere.radius := by
  obtain ⟨m, b', hm, ho⟩ := C81_sphere dbg M w b hp hn hM hr
  obtain ⟨m', b'', hm', hs⟩ := C88_sphere dbg M w b hp hn hM hr
  rw [hm] at hm'
  obtain ⟨rfl, rfl⟩ := Prod.mk.inj (Except.ok.inj hm')
  have hmi := sphere_build_inner dbg M w b hp hn hM hm
  have hne : triples (sphIdx b.polarCount b.azimuthCount) ≠ [] := by
    intro h
    have h1 := congrArg List.length h
    rw [triples_length, sphIdx_length hp (by omega)] at h1
    have : 1 ≤ b.azimuthCount * (b.polarCount - 1) := Nat.mul_pos (by omega) (by omega)
    have e : 6 * b.azimuthCount * (b.polarCount - 1) = 6 * (b.azimuthCount * (b.polarCount - 1)) := by ring
    rw [e] at h1
    generalize b.azimuthCount * (b.polarCount - 1) = k at *
    simp at h1
    omega
  obtain ⟨h1, h2, h3, h4⟩ := watertight_build dbg M w hmatIdentity 1 0 (fun p => by rw [C62_identity]; simp [affine]) _ _
    (by rw [sphIdx_length hp (by omega)]; exact hM) m hmi (sphIdx_closed hp hn) hne _ ho
    {x | Spec.dist x b.theSphere.origin < b.theSphere.radius * cos (π / b.azimuthCount) * cos (π / (2 * b.polarCount))}
    {x | Spec.dist x b.theSphere.origin ≤ b.theSphere.radius}
    (by
      intro f hf
      obtain ⟨g0, g1, g2, p, q, r, d, d0, d1, d2, hs⟩ := hs f hf
      exact ⟨g0, g1, g2, p, q, r, d, d0, d1, d2, fun x hx => (hs.1 hx).2, hs.2⟩)
    (fun p hp' q hq x hx => flat_ball hr.le hp' hq hq hx)
  refine ⟨m, b', hm, h1, h3, h4, fun d hd => ?_⟩
  have hd0 : d ≠ 0 := by
    rintro rfl
    simp [Spec.norm] at hd
  obtain ⟨s, hs1, hs2⟩ := h1.2.2.1 _ h2 d hd0
  have hsurf : meshSurface m ⊆ shell b.theSphere.origin
      (b.theSphere.radius * cos (π / b.azimuthCount) * cos (π / (2 * b.polarCount))) b.theSphere.radius := by
    refine surface_sub_of_facets fun f hf => ?_
    obtain ⟨g0, g1, g2, p, q, r, d, d0, d1, d2, hs⟩ := hs f hf
    exact ⟨g0, g1, g2, p, q, r, d, d0, d1, d2, hs.1⟩
  have hdist : Spec.dist (b.theSphere.origin + s • d) b.theSphere.origin = s := by
    have e : Spec.dist (b.theSphere.origin + s • d) b.theSphere.origin = Spec.norm (s • d) := by
      simp [Spec.dist, Spec.norm]
    rw [e]
    have : Spec.norm (s • d) = s * Spec.norm d := by
      simp only [Spec.norm, Pi.smul_apply, smul_eq_mul, mul_pow, ← Finset.mul_sum]
      rw [Real.sqrt_mul (sq_nonneg s), Real.sqrt_sq hs1.1.le]
    rw [this, hd, mul_one]
  have := hsurf hs1.2
  rw [shell, Set.mem_ofPred_eq, hdist] at this
  exact ⟨s, Set.eq_singleton_iff_unique_mem.2 ⟨hs1, hs2⟩, this⟩

/-- **C136** (cones) The mesh is watertight; its hull contains the inner points of the cone whose base has the radius `r cos(π/n)` and lies in the
cone. -/
theorem C136_cone [Tol ℝ] [LawfulTol ℝ] (dbg : Bool) (M w : Nat) (rotAlign : Vec ℝ 4 → Vec ℝ 4 → HMat ℝ) (cone : Cone ℝ) (n : Nat)
    (hn : 3 ≤ n) (hM : 6 * n + 1 < M) (hr : cone.radius ≠ 0) (hseg : cone.segment.source ≠ cone.segment.target)
    (hz : dbg = true → isZero cone.segment.length = false)
    (hrot : RotatesZTo (rotAlign (hvec4 0 0 1 1) (toHvec cone.segment.direction)) cone.segment.direction) :
    ∃ m, coneBuild dbg M w rotAlign (some cone) n = .ok (some m) ∧ Watertight m ∧
      openCone cone.segment.source cone.segment.target (cone.radius * cos (π / n)) ⊆ interior (convexHull ℝ {v | v ∈ m.points}) ∧
      convexHull ℝ {v | v ∈ m.points} ⊆ solidCone cone.segment.source cone.segment.target cone.radius := by
  obtain ⟨A, hA, hdet, hz', htr⟩ := placed hrot
  obtain ⟨m, hm, ho⟩ := C81_cone dbg M w rotAlign cone n hn hM hr hseg hz hrot
  obtain ⟨m', hm', hs⟩ := C88_cone dbg M w rotAlign cone n hn hM hr hseg hz hrot
  rw [hm] at hm'
  obtain rfl := Option.some.inj (Except.ok.inj hm')
  have hmi := hm
  rw [coneBuild_eq dbg M w rotAlign cone n (by omega) hseg hz] at hmi
  have hmi := of_map_some hmi
  have hne : triples (coneIdx n) ≠ [] := by
    intro h
    have h1 := congrArg List.length h
    rw [triples_length, coneIdx_length] at h1
    simp at h1
    omega
  obtain ⟨h1, h2, h3, h4⟩ := watertight_build dbg M w _ A cone.segment.source htr _ _ (by rw [coneIdx_length]; omega) m hmi
    (coneIdx_closed hn) hne _ ho _ _ hs (fun p hp q hq x hx => flat_cone hp hq hq hx)
  exact ⟨m, hm, h1, h3, h4⟩

/-- **C136** (cylinders) The mesh is watertight; its hull contains the inner points of the cylinder with the radius `r cos(π/n)` and lies in the
cylinder. -/
theorem C136_cylinder (dbg : Bool) (M w : Nat) (rotAlign : Vec ℝ 4 → Vec ℝ 4 → HMat ℝ) (cyl : Cylinder ℝ) (n : Nat)
    (hn : 3 ≤ n) (hM : 12 * n < M) (hr : cyl.radius ≠ 0) (hseg : cyl.segment.source ≠ cyl.segment.target)
    (hrot : RotatesZTo (rotAlign (hvec4 0 0 1 1) (toHvec cyl.segment.direction)) cyl.segment.direction) :
    ∃ m, cylinderBuild dbg M w rotAlign (some cyl) n = .ok (some m) ∧ Watertight m ∧
      openCylinder cyl.segment.source cyl.segment.target (cyl.radius * cos (π / n)) ⊆ interior (convexHull ℝ {v | v ∈ m.points}) ∧
      convexHull ℝ {v | v ∈ m.points} ⊆ solidCylinder cyl.segment.source cyl.segment.target cyl.radius := by
  obtain ⟨A, hA, hdet, hz', htr⟩ := placed hrot
  obtain ⟨m, hm, ho⟩ := C81_cylinder dbg M w rotAlign cyl n hn hM hr hseg hrot
  obtain ⟨m', hm', hs⟩ := C88_cylinder dbg M w rotAlign cyl n hn hM hr hseg hrot
  rw [hm] at hm'
  obtain rfl := Option.some.inj (Except.ok.inj hm')
  have hmi := hm
  rw [cylinderBuild_eq dbg M w rotAlign cyl n (by omega) (by omega)] at hmi
  have hmi := of_map_some hmi
  have hne : triples (cylIdx n) ≠ [] := by
    intro h
    have h1 := congrArg List.length h
    rw [triples_length, cylIdx_length] at h1
    simp at h1
    omega
  obtain ⟨h1, h2, h3, h4⟩ := watertight_build dbg M w _ A cyl.segment.source htr _ _ (by rw [cylIdx_length]; omega) m hmi
    (cylIdx_closed hn) hne _ ho _ _ hs (fun p hp q hq x hx => flat_cylinder hp hq hq hx)
  exact ⟨m, hm, h1, h3, h4⟩

theorem side_reversed (t : Vec ℝ 3 × Vec ℝ 3 × Vec ℝ 3) (x : Vec ℝ 3) : side (reversed t) x = -side t x := by
  obtain ⟨p, q, r⟩ := t
  simp only [reversed, side_eq]; ring

theorem surface_reversed (ts : List (Vec ℝ 3 × Vec ℝ 3 × Vec ℝ 3)) : surfaceOf (ts.map reversed) = surfaceOf ts := by
  ext x
  constructor
  · rintro ⟨t, ht, a, b, c, ha, hb, hc, h1, rfl⟩
    obtain ⟨t, ht', rfl⟩ := List.mem_map.1 ht
    exact ⟨t, ht', c, b, a, hc, hb, ha, by linarith, by simp only [reversed]; abel⟩
  · rintro ⟨t, ht, a, b, c, ha, hb, hc, h1, rfl⟩
    exact ⟨reversed t, List.mem_map_of_mem ht, c, b, a, hc, hb, ha, by linarith, by simp only [reversed]; abel⟩

theorem box_convex {o : Vec ℝ 3} {s : Fin 3 → Vec ℝ 3} : Convex ℝ (solidBox o s) := by
  rintro _ ⟨t, ht, rfl⟩ _ ⟨u, hu, rfl⟩ a b ha hb hab
  refine ⟨fun i => a * t i + b * u i, fun i => ⟨?_, ?_⟩, ?_⟩
  · have := (ht i).1; have := (hu i).1; positivity
  · nlinarith [(ht i).2, (hu i).2]
  · funext k
    obtain rfl : a = 1 - b := by linarith
    simp only [Pi.add_apply, Pi.smul_apply, smul_eq_mul, Fin.sum_univ_three]; ring

/-- **C136** (cuboids) The mesh of a cuboid with independent sides, right-handed or left-handed, is watertight, and its hull is the parallelepiped. -/
theorem C136_cuboid (dbg : Bool) (M w : Nat) (b : CuboidBuilder ℝ) (hM : 36 < M) (hi : LinearIndependent ℝ b.theCuboid.sides) :
    ∃ m b', b.build dbg M w = .ok (m, b') ∧ Watertight m ∧
      convexHull ℝ {v | v ∈ m.points} = solidBox b.theCuboid.origin b.theCuboid.sides := by
  have hM' : 3 * (cuboidTriangles b.theCuboid).length < M := by rw [cuboidTriangles_length]; omega
  obtain ⟨m, hm, hb, hh, hf, hv, he⟩ := cuboid_build dbg M w b hM
  obtain ⟨m', b', h1, hsurf⟩ := C88_cuboid dbg M w b hM hi
  have hmm : m' = m := by
    rw [he] at h1
    split_ifs at h1
    exact (Prod.mk.inj (Except.ok.inj h1)).1.symm
  subst hmm
  have hpts := corner_points dbg M _ hM' m' hb
  have hread := surface_of_reads (reads_of_built dbg M _ hM' m' hb)
  refine ⟨m', b', h1, ?_, ?_⟩
  · have hdet : det (Matrix.of b.theCuboid.sides) ≠ 0 := by
      have := Matrix.linearIndependent_rows_iff_isUnit (A := Matrix.of b.theCuboid.sides) |>.1 hi
      exact ((Matrix.isUnit_iff_isUnit_det _).1 this).ne_zero
    have hcs := cuboid_sides dbg M w b hM m' b' h1
    have hts : ∀ t ∈ cuboidTriangles b.theCuboid, (∃ x < 0, side t (cuboidCenter b.theCuboid) = det (Matrix.of b.theCuboid.sides) * x) ∧
        ∀ v ∈ corners (cuboidTriangles b.theCuboid), ∃ x ≤ 0, side t v = det (Matrix.of b.theCuboid.sides) * x := by
      intro t ht
      obtain ⟨k, hk, e⟩ := List.mem_iff_getElem.1 ht
      obtain ⟨f, hf', j0, j1, j2, g, g0, g1, g2⟩ := facet_corners_get dbg M _ hM' m' hb k hk
      obtain ⟨k0, k1, k2, p, q, r, d, d0, d1, d2, hs1, hs2⟩ := hcs f (List.mem_of_getElem? (vecGet_eq_ok.1 hf'))
      rw [g] at d
      obtain ⟨rfl, rfl, rfl⟩ : j0 = k0 ∧ j1 = k1 ∧ j2 = k2 := by simpa using Except.ok.inj d
      rw [g0] at d0; rw [g1] at d1; rw [g2] at d2
      rw [← Except.ok.inj d0, ← Except.ok.inj d1, ← Except.ok.inj d2, e] at hs1 hs2
      refine ⟨hs1, fun v hv => hs2 v ?_⟩
      have : v ∈ {v | v ∈ m'.points} := by rw [hpts]; exact hv
      exact this
    have hcl : NoBoundary (cuboidTriangles b.theCuboid) := by
      rw [cuboidTriangles_eq]; exact noBoundary_map cubeTris_closed.2 _
    have hne : cuboidTriangles b.theCuboid ≠ [] := by
      intro h; have := congrArg List.length h; rw [cuboidTriangles_length] at this; simp at this
    -- one of the two orientations is outward
    obtain ⟨us, hus1, hus2, hus3, hus4, hus5⟩ : ∃ us : List (Vec ℝ 3 × Vec ℝ 3 × Vec ℝ 3), us ≠ [] ∧ NoBoundary us ∧
        surfaceOf us = surfaceOf (cuboidTriangles b.theCuboid) ∧ {v | v ∈ corners us} = {v | v ∈ corners (cuboidTriangles b.theCuboid)} ∧
        ∀ t ∈ us, side t (cuboidCenter b.theCuboid) < 0 ∧ ∀ v ∈ corners us, side t v ≤ 0 := by
      rcases lt_or_gt_of_ne hdet with hd | hd
      · refine ⟨(cuboidTriangles b.theCuboid).map reversed, by simpa using hne, noBoundary_reversed hcl, surface_reversed _, ?_, ?_⟩
        · ext v; exact mem_corners_reversed
        · intro t ht
          obtain ⟨t, ht', rfl⟩ := List.mem_map.1 ht
          obtain ⟨⟨x, hx, e⟩, h⟩ := hts t ht'
          refine ⟨by rw [side_reversed, e]; nlinarith, fun v hv => ?_⟩
          obtain ⟨x, hx, e⟩ := h v (mem_corners_reversed.1 hv)
          rw [side_reversed, e]; nlinarith
      · refine ⟨_, hne, hcl, rfl, rfl, fun t ht => ?_⟩
        obtain ⟨⟨x, hx, e⟩, h⟩ := hts t ht
        refine ⟨by rw [e]; nlinarith, fun v hv => ?_⟩
        obtain ⟨x, hx, e⟩ := h v hv
        rw [e]; nlinarith
    have hin := hull_interior hus1 hus2 (fun t ht => (hus5 t ht).1) (fun t ht => (hus5 t ht).2)
    have hcm : cuboidCenter b.theCuboid ∈ interior (hullOf us) := by rw [hin]; exact fun t ht => (hus5 t ht).1
    unfold Watertight
    rw [hpts, ← hus4, hread, ← hus3]
    exact ⟨⟨_, hcm⟩, hull_frontier hus1 hus2 (fun t ht => (hus5 t ht).1) (fun t ht => (hus5 t ht).2),
      fun x hx d hd => hits_once hus1 hus2 (fun t ht => (hus5 t ht).1) (fun t ht => (hus5 t ht).2) hx d hd,
      fun x hx => hits_none hus1 hus2 (fun t ht => (hus5 t ht).1) (fun t ht => (hus5 t ht).2) hx⟩
  · apply Set.Subset.antisymm
    · refine hull_sub dbg M _ hM' m' hb _ (fun p hp q hq x hx => flat_mem_convex box_convex hp hq hq hx) ?_
      rw [hsurf]
      rintro _ ⟨t, ht, _, rfl⟩
      exact ⟨t, ht, rfl⟩
    · rintro _ ⟨t, ht, rfl⟩
      have hface : ∀ e : ℝ, e = 0 ∨ e = 1 → (fun k => b.theCuboid.origin k + ∑ i, (Function.update t 0 e) i * b.theCuboid.sides i k) ∈
          convexHull ℝ {v | v ∈ m'.points} := by
        intro e he
        have hm : (fun k => b.theCuboid.origin k + ∑ i, (Function.update t 0 e) i * b.theCuboid.sides i k) ∈ meshSurface m' := by
          rw [hsurf]
          refine ⟨_, fun i => ?_, ⟨0, by simpa using he⟩, rfl⟩
          by_cases h : i = 0
          · subst h; rcases he with rfl | rfl <;> simp
          · simpa [Function.update_of_ne h] using ht i
        rw [hread] at hm
        rw [hpts]
        exact surface_sub_hull hm
      have := (convex_convexHull ℝ {v | v ∈ m'.points}) (hface 0 (.inl rfl)) (hface 1 (.inr rfl))
        (show 0 ≤ 1 - t 0 by linarith [(ht 0).2]) (ht 0).1 (by ring)
      convert this using 1
      funext k
      simp only [Pi.add_apply, Pi.smul_apply, smul_eq_mul, Fin.sum_univ_three, Function.update_self,
        Function.update_of_ne (show (1 : Fin 3) ≠ 0 by decide), Function.update_of_ne (show (2 : Fin 3) ≠ 0 by decide)]
      ring
end

section Examples
attribute [local instance] realTol realTol_lawful
open Classical

/-- The point (1/4, 1/4, 1/4) lies inside the unit tetrahedron. -/
theorem tetra_outward (m : HalfedgeMesh (Vec ℝ 3)) (hb : BuiltFrom true (2 ^ 64) tetra m) : OutwardMesh m (fun _ => 1 / 4) := by
  have hM : 3 * tetra.length < 2 ^ 64 := by simp [tetra, tetraIdx]
  have h' := List.forall₂_iff_get.1 (reads_of_built true _ tetra hM m hb)
  have hpts := corner_points true _ tetra hM m hb
  intro f hf
  obtain ⟨i, rfl⟩ := List.mem_iff_get.1 hf
  obtain ⟨h0, h1, h2, e, e0, e1, e2⟩ := h'.2 i i.2 (by rw [← h'.1]; exact i.2)
  refine ⟨h0, h1, h2, _, _, _, e, e0, e1, e2, ?_⟩
  have ht : tetra.get ⟨i, by rw [← h'.1]; exact i.2⟩ ∈ tetra := List.get_mem _ _
  generalize tetra.get ⟨i, by rw [← h'.1]; exact i.2⟩ = t at ht
  obtain ⟨p, q, r⟩ := t
  have hall : ∀ v ∈ m.points, ∃ j : Fin 4, v = tetraPt j := by
    intro v hv
    have : v ∈ {v | v ∈ m.points} := hv
    rw [hpts] at this
    obtain ⟨t, ht, hvt⟩ := List.mem_flatMap.1 this
    obtain ⟨t, ht, rfl⟩ := List.mem_map.1 ht
    simp only [mapTriangle, List.mem_cons, List.not_mem_nil, or_false] at hvt
    rcases hvt with rfl | rfl | rfl <;> exact ⟨_, rfl⟩
  simp only [tetra, tetraIdx, mapTriangle, List.map_cons, List.map_nil, List.mem_cons, List.not_mem_nil, or_false, Prod.mk.injEq] at ht
  refine ⟨?_, fun v hv => ?_⟩
  · rcases ht with ⟨rfl, rfl, rfl⟩ | ⟨rfl, rfl, rfl⟩ | ⟨rfl, rfl, rfl⟩ | ⟨rfl, rfl, rfl⟩ <;> (rw [side_eq]; norm_num [tetraPt])
  · obtain ⟨j, rfl⟩ := hall v hv
    rcases ht with ⟨rfl, rfl, rfl⟩ | ⟨rfl, rfl, rfl⟩ | ⟨rfl, rfl, rfl⟩ | ⟨rfl, rfl, rfl⟩ <;> rw [side_eq] <;> fin_cases j <;> simp [tetraPt]

example : ∃ m, BuiltFrom true (2 ^ 64) tetra m ∧ Watertight m := by
  have hM : 3 * tetra.length < 2 ^ 64 := by simp [tetra, tetraIdx]
  obtain ⟨m, h1, h2⟩ := C48_build_succeeds true (2 ^ 64) 64 tetra hM
  exact ⟨m, h2, (C136_convex true _ tetra hM m h2 (by simp [tetra, tetraIdx]) tetra_closed.2 _ (tetra_outward m h2)).1⟩

example : ∃ m, BuiltFrom true (2 ^ 64) tetra m ∧ (hits (meshSurface m) (fun _ => 1 / 4) (vec3 1 2 3)).Nonempty := by
  have hM : 3 * tetra.length < 2 ^ 64 := by simp [tetra, tetraIdx]
  obtain ⟨m, h1, h2⟩ := C48_build_succeeds true (2 ^ 64) 64 tetra hM
  refine ⟨m, h2, C136_hit true _ tetra hM m h2 (by simp [tetra, tetraIdx]) tetra_closed.2 _ (fun f hf => ?_) _ fun h => ?_⟩
  · obtain ⟨g0, g1, g2, p, q, r, d, d0, d1, d2, hs⟩ := tetra_outward m h2 f hf
    exact ⟨g0, g1, g2, p, q, r, d, d0, d1, d2, hs.1⟩
  · have := congrFun h 0; simp [vec3] at this

example := C136_sphere true 65536 16 exSphere (by decide) (by decide) (by decide) (by simp [exSphere, SphereBuilder.theSphere])

example := C136_cone true 256 8 rotAlignZ ⟨exSeg, 2⟩ 5 (by decide) (by decide) (by norm_num) exSeg_ne (fun _ => exSeg_nonzero) (exSeg_rot _)

example := C136_cylinder true 256 8 rotAlignZ ⟨exSeg, 2⟩ 5 (by decide) (by decide) (by norm_num) exSeg_ne (exSeg_rot _)

/-- A left-handed cuboid. -/
example := C136_cuboid true 256 8 exBox (by decide) exBox_independent
end Examples
end Verif
