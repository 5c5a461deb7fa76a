import Verif.Spec.Watertight
import Verif.Proofs.Convex
import Mathlib.Topology.Algebra.Module.FiniteDimension
import Mathlib.Topology.Order.Compact
import Mathlib.Analysis.Normed.Module.Basic

set_option linter.unusedSectionVars false

/-
A surface without boundary around a point is hit by every ray from that point.
-/
namespace Verif
open Spec Matrix

/-- The determinant of three vectors. -/
def det3 (a b x : Vec ℝ 3) : ℝ :=
  a 0 * (b 1 * x 2 - b 2 * x 1) - a 1 * (b 0 * x 2 - b 2 * x 0) + a 2 * (b 0 * x 1 - b 1 * x 0)

theorem det3_add (a b x y : Vec ℝ 3) (s : ℝ) : det3 a b (x + s • y) = det3 a b x + s * det3 a b y := by
  simp only [det3, Pi.add_apply, Pi.smul_apply, smul_eq_mul]; ring

theorem det3_swap (a b x : Vec ℝ 3) : det3 b a x = -det3 a b x := by simp only [det3]; ring
theorem det3_rot (a b x : Vec ℝ 3) : det3 b x a = det3 a b x := by simp only [det3]; ring

theorem det3_continuous (a b : Vec ℝ 3) : Continuous (det3 a b) := by unfold det3; fun_prop

/-- `det3 a · x` as a linear map. -/
def detMid (a x : Vec ℝ 3) : Vec ℝ 3 →ₗ[ℝ] ℝ where
  toFun b := det3 a b x
  map_add' u v := by simp only [det3, Pi.add_apply]; ring
  map_smul' s v := by simp only [det3, Pi.smul_apply, smul_eq_mul, RingHom.id_apply]; ring

/-- `det3 a b` as a linear map. -/
def detLast (a b : Vec ℝ 3) : Vec ℝ 3 →ₗ[ℝ] ℝ where
  toFun x := det3 a b x
  map_add' u v := by simp only [det3, Pi.add_apply]; ring
  map_smul' s v := by simp only [det3, Pi.smul_apply, smul_eq_mul, RingHom.id_apply]; ring

/-- Finitely many linear equations do not cover an open set. -/
theorem generic (Ls : List (Vec ℝ 3 →ₗ[ℝ] ℝ)) (h : ∀ L ∈ Ls, L ≠ 0) (U : Set (Vec ℝ 3)) (hU : IsOpen U) (hne : U.Nonempty) :
    ∃ x ∈ U, ∀ L ∈ Ls, L x ≠ 0 := by
  induction Ls generalizing U with
  | nil => obtain ⟨x, hx⟩ := hne; exact ⟨x, hx, by simp⟩
  | cons L Ls ih =>
    have hc : Continuous L := L.continuous_of_finiteDimensional
    have ho : IsOpen (U ∩ {x | L x ≠ 0}) := hU.inter (isOpen_ne_fun hc continuous_const)
    have hn : (U ∩ {x | L x ≠ 0}).Nonempty := by
      by_contra hcon
      rw [Set.not_nonempty_iff_eq_empty] at hcon
      obtain ⟨x, hx⟩ := hne
      have hsub : U ⊆ (LinearMap.ker L : Set (Vec ℝ 3)) := by
        intro y hy
        by_contra hy'
        have : y ∈ U ∩ {x | L x ≠ 0} := ⟨hy, hy'⟩
        rw [hcon] at this
        exact this
      have htop : LinearMap.ker L = ⊤ :=
        Submodule.eq_top_of_nonempty_interior' _ ⟨x, mem_interior.2 ⟨U, hsub, hU, hx⟩⟩
      exact h L (by simp) (LinearMap.ker_eq_top.1 htop)
    obtain ⟨x, hx, hx'⟩ := ih (fun L hL => h L (by simp [hL])) _ ho hn
    refine ⟨x, hx.1, ?_⟩
    intro L' hL'
    rcases List.mem_cons.1 hL' with rfl | hL'
    · exact hx.2
    · exact hx' L' hL'

/-- The cone over a triangle, seen from zero. -/
def coneOver (t : Vec ℝ 3 × Vec ℝ 3 × Vec ℝ 3) : Set (Vec ℝ 3) :=
  {x | 0 ≤ det3 t.1 t.2.1 x ∧ 0 ≤ det3 t.2.1 t.2.2 x ∧ 0 ≤ det3 t.2.2 t.1 x}

theorem mem_coneOver {t : Vec ℝ 3 × Vec ℝ 3 × Vec ℝ 3} {x : Vec ℝ 3} : x ∈ coneOver t ↔ ∀ e ∈ triEdges t, 0 ≤ det3 e.1 e.2 x := by
  simp [coneOver, triEdges]

theorem isClosed_coneOver (t : Vec ℝ 3 × Vec ℝ 3 × Vec ℝ 3) : IsClosed (coneOver t) := by
  unfold coneOver
  refine IsClosed.inter ?_ (IsClosed.inter ?_ ?_)
  all_goals exact isClosed_le continuous_const (det3_continuous _ _)

/-- Cramer's rule. -/
theorem cramer3 (p q r x : Vec ℝ 3) : det3 p q r • x = det3 q r x • p + det3 r p x • q + det3 p q x • r := by
  funext i
  fin_cases i <;> simp only [det3, Pi.smul_apply, Pi.add_apply, smul_eq_mul] <;> dsimp <;> ring

/-- On an edge of the cone, the point is a combination of the ends of the edge that is not negative, and the third corner lies to the left of the edge. -/
theorem edge_point {t : Vec ℝ 3 × Vec ℝ 3 × Vec ℝ 3} (ht : 0 < det3 t.1 t.2.1 t.2.2) {y : Vec ℝ 3} (hy : y ∈ coneOver t)
    {a b : Vec ℝ 3} (he : (a, b) ∈ triEdges t) (h0 : det3 a b y = 0) : ∃ α β : ℝ, 0 ≤ α ∧ 0 ≤ β ∧ y = α • a + β • b := by
  obtain ⟨h1, h2, h3⟩ := hy
  have hc := cramer3 t.1 t.2.1 t.2.2 y
  have hy' : y = (det3 t.1 t.2.1 t.2.2)⁻¹ • (det3 t.1 t.2.1 t.2.2 • y) := by rw [smul_smul, inv_mul_cancel₀ ht.ne', one_smul]
  rw [hc] at hy'
  have hi := (inv_pos.2 ht).le
  simp only [triEdges, List.mem_cons, Prod.mk.injEq, List.not_mem_nil, or_false] at he
  rcases he with ⟨rfl, rfl⟩ | ⟨rfl, rfl⟩ | ⟨rfl, rfl⟩
  · refine ⟨_, _, mul_nonneg hi h2, mul_nonneg hi h3, ?_⟩
    conv_lhs => rw [hy']
    rw [h0, zero_smul, add_zero, smul_add, smul_smul, smul_smul]
  · refine ⟨_, _, mul_nonneg hi h3, mul_nonneg hi h1, ?_⟩
    conv_lhs => rw [hy']
    rw [h0, zero_smul, zero_add, smul_add, smul_smul, smul_smul]
  · refine ⟨_, _, mul_nonneg hi h1, mul_nonneg hi h2, ?_⟩
    conv_lhs => rw [hy']
    rw [h0, zero_smul, add_zero, smul_add, smul_smul, smul_smul, add_comm]

/-- The other edges of a triangle are strictly left of inner points of an edge. -/
theorem other_edges {t : Vec ℝ 3 × Vec ℝ 3 × Vec ℝ 3} (ht : 0 < det3 t.1 t.2.1 t.2.2) {a b : Vec ℝ 3} (he : (a, b) ∈ triEdges t)
    {α β : ℝ} (hα : 0 < α) (hβ : 0 < β) : ∀ e ∈ triEdges t, e = (a, b) ∨ 0 < det3 e.1 e.2 (α • a + β • b) := by
  intro e he'
  have key : ∀ p q r : Vec ℝ 3, det3 q r (α • p + β • q) = α * det3 p q r ∧ det3 r p (α • p + β • q) = β * det3 p q r := by
    intro p q r
    constructor <;> simp only [det3, Pi.add_apply, Pi.smul_apply, smul_eq_mul] <;> ring
  have r1 := det3_rot t.1 t.2.1 t.2.2
  have r2 := det3_rot t.2.1 t.2.2 t.1
  simp only [triEdges, List.mem_cons, Prod.mk.injEq, List.not_mem_nil, or_false] at he he'
  rcases he with ⟨rfl, rfl⟩ | ⟨rfl, rfl⟩ | ⟨rfl, rfl⟩ <;> rcases he' with rfl | rfl | rfl
  · exact .inl rfl
  · right; rw [(key _ _ _).1]; exact mul_pos hα ht
  · right; rw [(key _ _ _).2]; exact mul_pos hβ ht
  · right; rw [(key _ _ _).2, r1]; exact mul_pos hβ ht
  · exact .inl rfl
  · right; rw [(key _ _ _).1, r1]; exact mul_pos hα ht
  · right; rw [(key _ _ _).1, r2, r1]; exact mul_pos hα ht
  · right; rw [(key _ _ _).2, r2, r1]; exact mul_pos hβ ht
  · exact .inl rfl

/-- Finitely many affine functions that are positive, or zero and increasing, stay nonnegative for a while. -/
theorem stays {ι : Type} (l : List ι) (f g : ι → ℝ) (h : ∀ i ∈ l, 0 < f i ∨ (f i = 0 ∧ 0 ≤ g i)) :
    ∃ δ > 0, ∀ s, 0 ≤ s → s ≤ δ → ∀ i ∈ l, 0 ≤ f i + s * g i := by
  induction l with
  | nil => exact ⟨1, one_pos, by simp⟩
  | cons i l ih =>
    obtain ⟨δ, hδ, hl⟩ := ih fun j hj => h j (by simp [hj])
    rcases h i (by simp) with hi | ⟨hi, hg⟩
    · refine ⟨min δ (f i / (|g i| + 1)), lt_min hδ (by positivity), fun s hs hs' j hj => ?_⟩
      rcases List.mem_cons.1 hj with rfl | hj
      · have h1 : s * (|g j| + 1) ≤ f j := by
          rw [← le_div_iff₀ (by positivity)]; exact hs'.trans (min_le_right _ _)
        nlinarith [neg_abs_le (g j), abs_nonneg (g j)]
      · exact hl s hs (hs'.trans (min_le_left _ _)) j hj
    · refine ⟨δ, hδ, fun s hs hs' j hj => ?_⟩
      rcases List.mem_cons.1 hj with rfl | hj
      · rw [hi]; nlinarith [mul_nonneg hs hg]
      · exact hl s hs hs' j hj

/-- A path that avoids the corners cannot leave the cones over a surface without boundary. -/
theorem cones_path {ts : List (Vec ℝ 3 × Vec ℝ 3 × Vec ℝ 3)} (hnb : NoBoundary ts) (hpos : ∀ t ∈ ts, 0 < det3 t.1 t.2.1 t.2.2)
    (x₀ x : Vec ℝ 3) (h0 : ∃ t ∈ ts, x₀ ∈ coneOver t) (hgen : ∀ e ∈ directedEdges ts, det3 e.1 x₀ x ≠ 0 ∧ det3 e.2 x₀ x ≠ 0) :
    ∃ t ∈ ts, x ∈ coneOver t := by
  set γ : ℝ → Vec ℝ 3 := fun s => x₀ + s • (x - x₀) with hγ
  have hγc : Continuous γ := by rw [hγ]; fun_prop
  set S : Set ℝ := {s | s ∈ Set.Icc (0 : ℝ) 1 ∧ ∃ t ∈ ts, γ s ∈ coneOver t} with hS
  have hSc : IsCompact S := by
    have : S = Set.Icc (0 : ℝ) 1 ∩ ⋃ t ∈ {t | t ∈ ts}, γ ⁻¹' coneOver t := by
      ext s; simp [hS]
    rw [this]
    refine isCompact_Icc.inter_right ?_
    exact (List.finite_toSet ts).isClosed_biUnion fun t _ => (isClosed_coneOver t).preimage hγc
  have hSn : S.Nonempty := by
    obtain ⟨t, ht, hx⟩ := h0
    exact ⟨0, ⟨le_refl _, zero_le_one⟩, t, ht, by simpa [hγ] using hx⟩
  obtain ⟨T, hT, hmax⟩ := hSc.exists_isGreatest hSn
  obtain ⟨⟨hT0, hT1⟩, t, ht, hyt⟩ := hT
  rcases hT1.eq_or_lt with rfl | hT1
  · exact ⟨t, ht, by simpa [hγ] using hyt⟩
  exfalso
  have hline : ∀ a b s, det3 a b (γ (T + s)) = det3 a b (γ T) + s * det3 a b (x - x₀) := by
    intro a b s
    have : γ (T + s) = γ T + s • (x - x₀) := by simp only [hγ, add_smul, add_assoc]
    rw [this, det3_add]
  -- no cone continues
  have hno : ∀ t ∈ ts, ∃ e ∈ triEdges t, ¬ (0 < det3 e.1 e.2 (γ T) ∨ (det3 e.1 e.2 (γ T) = 0 ∧ 0 ≤ det3 e.1 e.2 (x - x₀))) := by
    intro t ht
    by_contra hcon
    push Not at hcon
    obtain ⟨δ, hδ, hst⟩ := stays (triEdges t) (fun e => det3 e.1 e.2 (γ T)) (fun e => det3 e.1 e.2 (x - x₀)) (by
      intro e he
      have := hcon e he
      tauto)
    have hm : 0 < min δ (1 - T) := lt_min hδ (by linarith)
    have hmem : T + min δ (1 - T) ∈ S := by
      refine ⟨⟨by linarith, by linarith [min_le_right δ (1 - T)]⟩, t, ht, mem_coneOver.2 fun e he => ?_⟩
      rw [hline]
      exact hst _ hm.le (min_le_left _ _) e he
    have := hmax hmem
    linarith
  obtain ⟨⟨a, b⟩, he, hab⟩ := hno t ht
  have hab0 := mem_coneOver.1 hyt _ he
  push Not at hab
  have hz : det3 a b (γ T) = 0 := le_antisymm hab.1 hab0
  have hdec := hab.2 hz
  have hed : (a, b) ∈ directedEdges ts := mem_directedEdges.2 ⟨t, ht, he⟩
  obtain ⟨α, β, hα, hβ, hy⟩ := edge_point (hpos t ht) hyt he hz
  have hgen' := hgen _ hed
  have hdetγ : ∀ v, det3 v x₀ (γ T) = T * det3 v x₀ x := by
    intro v; simp only [hγ, det3, Pi.add_apply, Pi.smul_apply, Pi.sub_apply, smul_eq_mul]; ring
  have hdetγ' : ∀ v, det3 v x (γ T) = -((1 - T) * det3 v x₀ x) := by
    intro v; simp only [hγ, det3, Pi.add_apply, Pi.smul_apply, Pi.sub_apply, smul_eq_mul]; ring
  -- the path does not meet the rays through the corners
  have hoff : ∀ v : Vec ℝ 3, ∀ c : ℝ, det3 v x₀ x ≠ 0 → γ T ≠ c • v := by
    intro v c hv h
    have e := hdetγ' v
    rw [h] at e
    have : det3 v x (c • v) = 0 := by simp only [det3, Pi.smul_apply, smul_eq_mul]; ring
    rw [this] at e
    have : (1 - T) * det3 v x₀ x ≠ 0 := mul_ne_zero (by linarith) hv
    exact this (by linarith)
  have hα : 0 < α := hα.lt_of_ne fun h => hoff b β hgen'.2 (by rw [hy, ← h, zero_smul, zero_add])
  have hβ : 0 < β := hβ.lt_of_ne fun h => hoff a α hgen'.1 (by rw [hy, ← h, zero_smul, add_zero])
  obtain ⟨t', ht', he'⟩ := mem_directedEdges.1 (hnb _ _ hed)
  obtain ⟨e, hee, hne⟩ := hno t' ht'
  rcases other_edges (hpos t' ht') he' hβ hα e hee with rfl | hp
  · apply hne
    right
    dsimp only
    rw [det3_swap a b, det3_swap a b, hz]
    dsimp only at hdec
    constructor <;> linarith
  · apply hne
    left
    rw [hy, add_comm]; exact hp

/-- Every direction lies in the cone over a triangle. -/
theorem cones_cover {ts : List (Vec ℝ 3 × Vec ℝ 3 × Vec ℝ 3)} (hne : ts ≠ []) (hnb : NoBoundary ts)
    (hpos : ∀ t ∈ ts, 0 < det3 t.1 t.2.1 t.2.2) (x : Vec ℝ 3) : ∃ t ∈ ts, x ∈ coneOver t := by
  have hcl : IsClosed (⋃ t ∈ {t | t ∈ ts}, coneOver t) :=
    (List.finite_toSet ts).isClosed_biUnion fun t _ => isClosed_coneOver t
  suffices h : x ∈ ⋃ t ∈ {t | t ∈ ts}, coneOver t by simpa using h
  by_contra hx
  have hU : IsOpen (⋃ t ∈ {t | t ∈ ts}, coneOver t)ᶜ := hcl.isOpen_compl
  -- corners are not zero
  have hv : ∀ v ∈ corners ts, ∃ g, detLast v g ≠ 0 := by
    intro v hv
    obtain ⟨t, ht, hv⟩ := List.mem_flatMap.1 hv
    have h := hpos t ht
    have r1 := det3_rot t.1 t.2.1 t.2.2
    have r2 := det3_rot t.2.1 t.2.2 t.1
    simp only [List.mem_cons, List.not_mem_nil, or_false] at hv
    rcases hv with rfl | rfl | rfl
    · exact ⟨t.2.1, fun h0 => h.ne' (by simpa [detLast] using LinearMap.congr_fun h0 t.2.2)⟩
    · exact ⟨t.2.2, fun h0 => h.ne' (r1 ▸ by simpa [detLast] using LinearMap.congr_fun h0 t.1)⟩
    · exact ⟨t.1, fun h0 => h.ne' (r1 ▸ r2 ▸ by simpa [detLast] using LinearMap.congr_fun h0 t.2.1)⟩
  choose! g hg using hv
  obtain ⟨x', hx'U, hx'⟩ := generic ((corners ts).map fun v => detLast v (g v)) (by
    intro L hL
    obtain ⟨v, hv, rfl⟩ := List.mem_map.1 hL
    exact hg v hv) _ hU ⟨x, hx⟩
  obtain ⟨t, ht⟩ := List.exists_mem_of_ne_nil ts hne
  set W : Set (Vec ℝ 3) := {y | 0 < det3 t.1 t.2.1 y ∧ 0 < det3 t.2.1 t.2.2 y ∧ 0 < det3 t.2.2 t.1 y} with hW
  have hWo : IsOpen W := by
    refine IsOpen.inter ?_ (IsOpen.inter ?_ ?_)
    all_goals exact isOpen_lt continuous_const (det3_continuous _ _)
  have hWn : W.Nonempty := by
    have h := hpos t ht
    refine ⟨t.1 + t.2.1 + t.2.2, ?_, ?_, ?_⟩
    all_goals
      refine h.trans_eq ?_
      simp only [det3, Pi.add_apply]; ring
  obtain ⟨x₀, hx₀W, hx₀⟩ := generic ((corners ts).map fun v => detMid v x') (by
    intro L hL
    obtain ⟨v, hv, rfl⟩ := List.mem_map.1 hL
    intro h0
    refine hx' _ (List.mem_map.2 ⟨v, hv, rfl⟩) ?_
    simpa [detLast, detMid] using LinearMap.congr_fun h0 (g v)) W hWo hWn
  have hcov := cones_path hnb hpos x₀ x' ⟨t, ht, hx₀W.1.le, hx₀W.2.1.le, hx₀W.2.2.le⟩ (by
    rintro ⟨a, b⟩ he
    obtain ⟨h1, h2⟩ := corners_of_edge he
    exact ⟨hx₀ _ (List.mem_map.2 ⟨a, h1, rfl⟩), hx₀ _ (List.mem_map.2 ⟨b, h2, rfl⟩)⟩)
  apply hx'U
  simpa using hcov

theorem side_det3 (t : Vec ℝ 3 × Vec ℝ 3 × Vec ℝ 3) (c : Vec ℝ 3) : side t c = -det3 (t.1 - c) (t.2.1 - c) (t.2.2 - c) := by
  obtain ⟨p, q, r⟩ := t
  rw [side_eq]
  simp only [det3, Pi.sub_apply]; ring

/-- Every ray from a point strictly behind all triangles hits one of them. -/
theorem ray_hits {ts : List (Vec ℝ 3 × Vec ℝ 3 × Vec ℝ 3)} (hne : ts ≠ []) (hnb : NoBoundary ts) (c : Vec ℝ 3)
    (hc : ∀ t ∈ ts, side t c < 0) (d : Vec ℝ 3) (hd : d ≠ 0) : ∃ s : ℝ, 0 < s ∧ c + s • d ∈ surfaceOf ts := by
  set us := ts.map (mapTriangle (· - c)) with hus
  have hpos : ∀ t ∈ us, 0 < det3 t.1 t.2.1 t.2.2 := by
    intro t ht
    obtain ⟨t, ht', rfl⟩ := List.mem_map.1 ht
    have := hc t ht'
    rw [side_det3] at this
    simpa [mapTriangle] using this
  have hnb' : NoBoundary us := by
    intro a b hab
    rw [hus, directedEdges_map, List.mem_map] at hab ⊢
    obtain ⟨⟨u, v⟩, huv, e⟩ := hab
    simp only [Prod.map_apply, Prod.mk.injEq] at e
    exact ⟨(v, u), hnb u v huv, by simp [e.1, e.2]⟩
  obtain ⟨t, ht, h1, h2, h3⟩ := cones_cover (by simpa [hus] using hne) hnb' hpos d
  have hp := hpos t ht
  obtain ⟨t, ht', rfl⟩ := List.mem_map.1 ht
  simp only [mapTriangle] at h1 h2 h3 hp
  have hcr := cramer3 (t.1 - c) (t.2.1 - c) (t.2.2 - c) d
  set A := det3 (t.2.1 - c) (t.2.2 - c) d
  set B := det3 (t.2.2 - c) (t.1 - c) d
  set C := det3 (t.1 - c) (t.2.1 - c) d
  set D := det3 (t.1 - c) (t.2.1 - c) (t.2.2 - c)
  have hsum : 0 < A + B + C := by
    rcases (show 0 ≤ A + B + C by positivity).eq_or_lt with h | h
    · exfalso
      have hA : A = 0 := by linarith
      have hB : B = 0 := by linarith
      have hC : C = 0 := by linarith
      rw [hA, hB, hC] at hcr
      simp only [zero_smul, add_zero, smul_eq_zero, hp.ne', false_or] at hcr
      exact hd hcr
    · exact h
  refine ⟨D / (A + B + C), by positivity, t, ht', A / (A + B + C), B / (A + B + C), C / (A + B + C), by positivity, by positivity,
    by positivity, by field_simp, ?_⟩
  funext i
  have := congrFun hcr i
  simp only [Pi.smul_apply, Pi.add_apply, Pi.sub_apply, smul_eq_mul] at this ⊢
  field_simp
  linarith
end Verif
