import Verif.Props.Parts
import Verif.Props.KdTree
import Verif.Props.AABB

set_option linter.unusedSectionVars false

/-
C140: small changes of the input change the results by little.
-/
namespace Verif
open Matrix

/-- If each point of `S'` is within `δ` of a point of `S`, the distance of a point to `S` exceeds that of a second point to `S'` by at most `δ` and the distance of
the points. -/
theorem isDistance_near {D : ℕ} {S S' : Set (Vec ℝ D)} {v v' : Vec ℝ D} {m m' δ : ℝ} (h : Spec.IsDistance {v} S m) (h' : Spec.IsDistance {v'} S' m')
    (hS : ∀ q' ∈ S', ∃ q ∈ S, Spec.dist q' q ≤ δ) : m ≤ m' + (Spec.dist v v' + δ) := by
  obtain ⟨p, hp, q', hq', rfl⟩ := h'.1
  cases hp
  obtain ⟨q, hq, hd⟩ := hS q' hq'
  have h1 := isDistance_le h rfl hq
  have h2 := dist_triangle' v v' q
  have h3 := dist_triangle' v' q' q
  linarith

theorem dist_add_right' {D : ℕ} (a b c : Vec ℝ D) : Spec.dist (a + c) (b + c) = Spec.dist a b := by
  rw [spec_dist_eq, spec_dist_eq, add_sub_add_right_eq_sub]

theorem dist_smul_unit {D : ℕ} (o u : Vec ℝ D) (hu : u ⬝ᵥ u = 1) (s t : ℝ) : Spec.dist (o + s • u) (o + t • u) = |s - t| := by
  rw [spec_dist_eq, add_sub_add_left_eq_sub, ← sub_smul, dp_smul_self, hu, mul_one, Real.sqrt_sq_eq_abs]

theorem abs_dp_unit_le {D : ℕ} (x u : Vec ℝ D) (hu : u ⬝ᵥ u = 1) : |x ⬝ᵥ u| ≤ Spec.norm x := by
  have h := dp_mul_dp_le x u
  rw [hu, mul_one] at h
  rw [spec_norm_eq, length_eq]
  exact Real.abs_le_sqrt h

theorem norm_sub_dist {D : ℕ} (a b : Vec ℝ D) : Spec.norm (a - b) = Spec.dist a b := rfl

theorem line_shift {D : ℕ} (o o' d : Vec ℝ D) : ∀ q' ∈ Spec.line o' d, ∃ q ∈ Spec.line o d, Spec.dist q' q ≤ Spec.dist o o' := by
  rintro _ ⟨t, rfl⟩
  exact ⟨_, ⟨t, rfl⟩, by rw [pointAt_eq, pointAt_eq, dist_add_right', dist_comm']⟩

theorem ray_shift {D : ℕ} (o o' d : Vec ℝ D) : ∀ q' ∈ Spec.ray o' d, ∃ q ∈ Spec.ray o d, Spec.dist q' q ≤ Spec.dist o o' := by
  rintro _ ⟨t, h0, rfl⟩
  exact ⟨_, ⟨t, h0, rfl⟩, by rw [pointAt_eq, pointAt_eq, dist_add_right', dist_comm']⟩

theorem plane_shift (o o' n : Vec ℝ 3) : ∀ q' ∈ Spec.plane o' n, ∃ q ∈ Spec.plane o n, Spec.dist q' q ≤ Spec.dist o o' := by
  intro q' hq'
  refine ⟨q' + (o - o'), ?_, ?_⟩
  · show (q' + (o - o') - o) ⬝ᵥ n = 0
    have : q' + (o - o') - o = q' - o' := by abel
    rw [this]; exact hq'
  · rw [spec_dist_eq, spec_dist_eq]
    have : q' - (q' + (o - o')) = -(o - o') := by abel
    rw [this, neg_dotProduct, dotProduct_neg, neg_neg]

/-- **C140** (point and line) The distance changes by at most the way the point and the line are moved. -/
theorem C140_point_line {D : ℕ} (v v' o o' d : Vec ℝ D) (hd : d ≠ 0) :
    |distVecLine v (Line.make o d) - distVecLine v' (Line.make o' d)| ≤ Spec.dist v v' + Spec.dist o o' := by
  have h := C20_point_line v o d hd
  have h' := C20_point_line v' o' d hd
  have h1 := isDistance_near h h' (line_shift o o' d)
  have h2 := isDistance_near h' h (line_shift o' o d)
  rw [dist_comm' v' v, dist_comm' o' o] at h2
  rw [abs_le]; constructor <;> linarith

/-- **C140** (point and plane) -/
theorem C140_point_plane (v v' o o' n : Vec ℝ 3) (hn : n ≠ 0) :
    |distPlaneVec (Plane.make o n) v - distPlaneVec (Plane.make o' n) v'| ≤ Spec.dist v v' + Spec.dist o o' := by
  have h := C22_point_plane o n v hn
  have h' := C22_point_plane o' n v' hn
  have h1 := isDistance_near h h' (plane_shift o o' n)
  have h2 := isDistance_near h' h (plane_shift o' o n)
  rw [dist_comm' v' v, dist_comm' o' o] at h2
  rw [abs_le]; constructor <;> linarith

/-- **C140** (point and sphere) The distance and the signed distance change by at most the way the point and the centre are moved and the change of the radius. -/
theorem C140_point_sphere (v v' c c' : Vec ℝ 3) (r r' : ℝ) :
    |signedDistSphere v ⟨c, r⟩ - signedDistSphere v' ⟨c', r'⟩| ≤ Spec.dist v v' + Spec.dist c c' + |r - r'| ∧
    |distSphere v ⟨c, r⟩ - distSphere v' ⟨c', r'⟩| ≤ Spec.dist v v' + Spec.dist c c' + |r - r'| := by
  have h : |signedDistSphere v ⟨c, r⟩ - signedDistSphere v' ⟨c', r'⟩| ≤ Spec.dist v v' + Spec.dist c c' + |r - r'| := by
    unfold signedDistSphere
    rw [length_vsub, length_vsub]
    have h1 := dist_triangle' v v' c
    have h2 := dist_triangle' v' c' c
    have h3 := dist_triangle' v' v c'
    have h4 := dist_triangle' v c c'
    rw [dist_comm' c' c] at h2
    rw [dist_comm' v' v] at h3
    have h5 := le_abs_self (r - r')
    have h6 := neg_abs_le (r - r')
    dsimp only
    rw [abs_le]; constructor <;> linarith
  refine ⟨h, ?_⟩
  unfold distSphere
  rw [stdAbs_eq, stdAbs_eq]
  exact (abs_abs_sub_abs_le_abs_sub _ _).trans h

section
variable [Tol ℝ] [LawfulTol ℝ]

/-- **C140** (point and ray) The distance changes by at most the way the point and the ray are moved and the tolerance. Missing: without the tolerance it is false, see
`C140_point_ray_counterexample`. -/
theorem C140_point_ray_partial {D : ℕ} (dbg : Bool) (v v' o o' d : Vec ℝ D) (hd : d ≠ 0) (r r' : Ray ℝ D) (hr : Ray.make dbg o d = .ok r)
    (hr' : Ray.make dbg o' d = .ok r') : |distRayVec r v - distRayVec r' v'| ≤ Spec.dist v v' + Spec.dist o o' + eps := by
  obtain ⟨m, h, a1, a2⟩ := C21_point_ray dbg v o d hd r hr
  obtain ⟨m', h', b1, b2⟩ := C21_point_ray dbg v' o' d hd r' hr'
  have h1 := isDistance_near h h' (ray_shift o o' d)
  have h2 := isDistance_near h' h (ray_shift o' o d)
  rw [dist_comm' v' v, dist_comm' o' o] at h2
  rw [abs_le]; constructor <;> linarith

/-- **C140** is false for rays: the distance jumps by `eps`; two points as close to each other as one likes have distances from a ray that differ by almost `eps`. -/
theorem C140_point_ray_counterexample (dbg : Bool) (hs : (eps : ℝ) < 1) (δ : ℝ) (h0 : 0 < δ) (h1 : δ < eps) :
    ∃ r, Ray.make dbg (0 : Vec ℝ 3) ![1, 0, 0] = .ok r ∧ ∃ v v' : Vec ℝ 3, Spec.dist v v' = δ ∧ distRayVec r v - distRayVec r v' = eps - δ / 2 := by
  have hep := eps_pos (K := ℝ)
  have hu : (![1, 0, 0] : Vec ℝ 3) ⬝ᵥ ![1, 0, 0] = 1 := by simp [dotProduct, Fin.sum_univ_three]
  have hl1 : length (![1, 0, 0] : Vec ℝ 3) = 1 := by rw [length_eq, hu, Real.sqrt_one]
  have hr := Ray.make_ok (dbg := dbg) (o := 0) (d := (![1, 0, 0] : Vec ℝ 3)) (by rw [hl1]; exact hs)
  rw [normalize_of_unit hu] at hr
  have hx : ∀ x : ℝ, vsub ![x, 0, 0] (0 : Vec ℝ 3) = ![x, 0, 0] := fun x => by rw [vsub_eq, sub_zero]
  have hd : ∀ x : ℝ, dot ![x, 0, 0] (![1, 0, 0] : Vec ℝ 3) = x := fun x => by rw [dot_eq]; simp [dotProduct, Fin.sum_univ_three]
  refine ⟨_, hr, ![eps - δ / 2, 0, 0], ![eps + δ / 2, 0, 0], ?_, ?_⟩
  · rw [spec_dist_eq, Real.sqrt_eq_iff_mul_self_eq (dp_self_nonneg _) h0.le]
    simp [dotProduct, Fin.sum_univ_three]; ring
  · have e1 : distRayVec ⟨0, ![1, 0, 0]⟩ ![eps - δ / 2, 0, 0] = (eps - δ / 2 : ℝ) := by
      unfold distRayVec
      simp only [hx, hd, isGreater_eq]
      rw [if_neg (by rw [show isLess 0 (eps - δ / 2) = false from TolE.less_false hep (by show _ < 0 + eps; linarith)]; simp), length_vsub, spec_dist_eq,
        Real.sqrt_eq_iff_mul_self_eq (dp_self_nonneg _) (by linarith)]
      simp [dotProduct, Fin.sum_univ_three]
    have e2 : distRayVec ⟨0, ![1, 0, 0]⟩ ![eps + δ / 2, 0, 0] = (0 : ℝ) := by
      unfold distRayVec
      simp only [hx, hd, isGreater_eq]
      rw [if_pos (show isLess 0 (eps + δ / 2) = true from TolE.less_true hep (by show 0 + eps < _; linarith)), rejection_eq, hu, length_eq,
        Real.sqrt_eq_zero (dp_self_nonneg _)]
      simp [dotProduct, Fin.sum_univ_three]
    rw [e1, e2, sub_zero]
end

theorem clip_lip (x y : ℝ) : |min (max x 0) 1 - min (max y 0) 1| ≤ |x - y| := by
  have h1 := abs_min_sub_min_le_max (max x 0) 1 (max y 0) 1
  have h2 := abs_max_sub_max_le_max x 0 y 0
  simp only [sub_self, abs_zero] at h1 h2
  rw [max_eq_left (abs_nonneg (max x 0 - max y 0))] at h1
  rw [max_eq_left (abs_nonneg (x - y))] at h2
  exact h1.trans h2

theorem dist_smul {D : ℕ} (o u : Vec ℝ D) (s t : ℝ) : Spec.dist (o + s • u) (o + t • u) = |s - t| * length u := by
  rw [spec_dist_eq, add_sub_add_left_eq_sub, ← sub_smul, dp_smul_self, length_eq, Real.sqrt_mul (sq_nonneg _), Real.sqrt_sq_eq_abs]

/-- **C140** (point and segment) The distance changes by at most `1 + l` times the way of the point, `l` the length of the segment. Missing: the factor 1, see
`C140_point_segment_counterexample`. -/
theorem C140_point_segment_partial {D : ℕ} (a b v v' : Vec ℝ D) :
    |distSegmentVec ⟨a, b⟩ v - distSegmentVec ⟨a, b⟩ v'| ≤ (1 + Spec.dist a b) * Spec.dist v v' := by
  rw [distSegmentVec_eq, distSegmentVec_eq]
  set s := min (max ((v - a) ⬝ᵥ (b - a) / length (b - a)) 0) 1
  set t := min (max ((v' - a) ⬝ᵥ (b - a) / length (b - a)) 0) 1
  have hL : length (b - a) = Spec.dist a b := by rw [← vsub_eq, length_vsub, dist_comm']
  have hst : |s - t| * length (b - a) ≤ Spec.dist v v' * Spec.dist a b := by
    rw [← hL]
    rcases (length_nonneg (b - a)).eq_or_lt with h0 | h0
    · rw [← h0]; simp
    · refine mul_le_mul_of_nonneg_right ((clip_lip _ _).trans ?_) h0.le
      rw [← sub_div, ← sub_dotProduct, sub_sub_sub_cancel_right, abs_div, abs_of_pos h0, div_le_iff₀ h0]
      have := Real.abs_le_sqrt (dp_mul_dp_le (v - v') (b - a))
      rwa [Real.sqrt_mul (dp_self_nonneg _), ← spec_dist_eq, ← length_eq] at this
  have h1 := dist_triangle' v v' (a + s • (b - a))
  have h2 := dist_triangle' v' (a + t • (b - a)) (a + s • (b - a))
  have h3 := dist_triangle' v' v (a + t • (b - a))
  have h4 := dist_triangle' v (a + s • (b - a)) (a + t • (b - a))
  rw [dist_smul, abs_sub_comm] at h2
  rw [dist_smul] at h4
  rw [dist_comm' v' v] at h3
  rw [abs_le]; constructor <;> linarith

/-- **C140** is false for segments: the distance changes `l - 1` times as fast as the point, `l` the length of the segment. -/
theorem C140_point_segment_counterexample (l x : ℝ) (hl : 1 ≤ l) (h0 : 0 ≤ x) (h1 : x ≤ 1) :
    ∃ a b v v' : Vec ℝ 2, Spec.dist a b = l ∧ Spec.dist v v' = x ∧ distSegmentVec ⟨a, b⟩ v - distSegmentVec ⟨a, b⟩ v' = (l - 1) * x := by
  have hl0 : length (![l, 0] - 0 : Vec ℝ 2) = l := by
    rw [length_eq, Real.sqrt_eq_iff_mul_self_eq (dp_self_nonneg _) (by linarith)]
    simp [dotProduct, Fin.sum_univ_two]
  have hf : ∀ y : ℝ, 0 ≤ y → y ≤ 1 → distSegmentVec ⟨0, ![l, 0]⟩ (![y, 0] : Vec ℝ 2) = (l - 1) * y := by
    intro y h0 h1
    have e1 : (![y, 0] - 0 : Vec ℝ 2) ⬝ᵥ (![l, 0] - 0) / l = y := by
      simp [dotProduct, Fin.sum_univ_two]
      field_simp
    rw [distSegmentVec_eq, hl0, e1, max_eq_left h0, min_eq_left h1, spec_dist_eq, Real.sqrt_eq_iff_mul_self_eq (dp_self_nonneg _)
      (mul_nonneg (by linarith) h0)]
    simp [dotProduct, Fin.sum_univ_two]; ring
  refine ⟨0, ![l, 0], ![x, 0], ![0, 0], ?_, ?_, ?_⟩
  · rw [dist_comm', spec_dist_eq, ← length_eq, hl0]
  · rw [spec_dist_eq, Real.sqrt_eq_iff_mul_self_eq (dp_self_nonneg _) h0]
    simp [dotProduct, Fin.sum_univ_two]
  · rw [hf x h0 h1, hf 0 le_rfl zero_le_one]; ring

section
variable {D : ℕ} {P : Type*} {w : ℕ} [NeZero D] [BEq (Vec ℝ D)] [LawfulBEq (Vec ℝ D)]

theorem nearest_near (h h' : List (Vec ℝ D × P)) (q q' : Vec ℝ D) (δ : ℝ) (hδ : List.Forall₂ (fun e e' => Spec.dist e.1 e'.1 ≤ δ) h h')
    (e e' : Vec ℝ D × P) (h1 : (KdTree.build w h).nearest q = .ok e) (h2 : (KdTree.build w h').nearest q' = .ok e') :
    Spec.dist e.1 q ≤ Spec.dist e'.1 q' + (Spec.dist q q' + δ) := by
  have hne : h ≠ [] := by
    rintro rfl
    rw [(C04_nearest [] q).1 rfl] at h1; cases h1
  have hne' : h' ≠ [] := by
    rintro rfl
    rw [(C04_nearest [] q').1 rfl] at h2; cases h2
  obtain ⟨f, -, f1, f2⟩ := (C04_nearest h q).2 hne
  obtain ⟨f', g1, g2, -⟩ := (C04_nearest h' q').2 hne'
  rw [h1] at f1; cases f1
  rw [h2] at g2; cases g2
  have hm : ∀ {l l' : List (Vec ℝ D × P)}, List.Forall₂ (fun e e' => Spec.dist e.1 e'.1 ≤ δ) l l' → ∀ y ∈ l', ∃ x ∈ l, Spec.dist x.1 y.1 ≤ δ := by
    intro l l' hl
    induction hl with
    | nil => intro y hy; cases hy
    | cons h _ ih =>
      intro y hy
      rcases List.mem_cons.1 hy with rfl | hy
      · exact ⟨_, List.mem_cons_self, h⟩
      · obtain ⟨x, hx, hd⟩ := ih y hy
        exact ⟨x, List.mem_cons_of_mem _ hx, hd⟩
  obtain ⟨x, hx, hd⟩ := hm hδ e' (firstEntries_subset h' g1)
  have k1 := f2 x hx
  have k2 := dist_triangle' x.1 e'.1 q
  have k3 := dist_triangle' e'.1 q' q
  rw [dist_comm' q' q] at k3
  linarith

/-- **C140** (nearest neighbour) The distance of the query and the point found changes by at most the way of the query and the largest way of a stored point. -/
theorem C140_nearest (h h' : List (Vec ℝ D × P)) (q q' : Vec ℝ D) (δ : ℝ) (hδ : List.Forall₂ (fun e e' => Spec.dist e.1 e'.1 ≤ δ) h h')
    (e e' : Vec ℝ D × P) (h1 : (KdTree.build w h).nearest q = .ok e) (h2 : (KdTree.build w h').nearest q' = .ok e') :
    |Spec.dist e.1 q - Spec.dist e'.1 q'| ≤ Spec.dist q q' + δ := by
  have k1 := nearest_near h h' q q' δ hδ e e' h1 h2
  have k2 := nearest_near h' h q' q δ (hδ.flip.imp fun _ _ k => by rw [dist_comm']; exact k) e' e h2 h1
  rw [dist_comm' q' q] at k2
  rw [abs_le]; constructor <;> linarith
end

section
variable [Tol ℝ] [LawfulTol ℝ] [HasLimits ℝ]
/-- **C140** (bounding box) The corners change by at most the largest change of a coordinate. -/
theorem C140_box (dbg : Bool) (pts pts' : List (Vec ℝ 3)) (δ : ℝ) (hδ : List.Forall₂ (fun p p' => ∀ i, |p i - p' i| ≤ δ) pts pts')
    (hnil : pts ≠ [])
    (hlim : ∀ p ∈ pts ++ pts', ∀ i, HasLimits.lowest ≤ p i ∧ p i ≤ HasLimits.maxVal) (b b' : AABB ℝ 3)
    (hb : makeAABB dbg pts = .ok b) (hb' : makeAABB dbg pts' = .ok b') (i : Fin 3) : |b.min i - b'.min i| ≤ δ ∧ |b.max i - b'.max i| ≤ δ := by
  have hm : ∀ {l l' : List (Vec ℝ 3)}, List.Forall₂ (fun p p' => ∀ i, |p i - p' i| ≤ δ) l l' →
      (∀ y ∈ l', ∃ x ∈ l, |x i - y i| ≤ δ) ∧ (∀ x ∈ l, ∃ y ∈ l', |x i - y i| ≤ δ) := by
    intro l l' hl
    induction hl with
    | nil => exact ⟨fun y hy => (by cases hy), fun y hy => (by cases hy)⟩
    | cons h _ ih =>
      constructor
      · intro y hy
        rcases List.mem_cons.1 hy with rfl | hy
        · exact ⟨_, List.mem_cons_self, h i⟩
        · obtain ⟨x, hx, hd⟩ := ih.1 y hy
          exact ⟨x, List.mem_cons_of_mem _ hx, hd⟩
      · intro y hy
        rcases List.mem_cons.1 hy with rfl | hy
        · exact ⟨_, List.mem_cons_self, h i⟩
        · obtain ⟨x, hx, hd⟩ := ih.2 y hy
          exact ⟨x, List.mem_cons_of_mem _ hx, hd⟩
  obtain ⟨m1, m2⟩ := hm hδ
  have hne : pts ≠ [] := by
    rintro rfl
    cases hδ
    exact hnil rfl
  have hne' : pts' ≠ [] := by
    rintro rfl
    cases hδ
    exact hnil rfl
  obtain ⟨x, hx, k⟩ := C11_make_aabb dbg pts hne (fun p hp => hlim p (List.mem_append_left _ hp))
  obtain ⟨x', hx', k'⟩ := C11_make_aabb dbg pts' hne' (fun p hp => hlim p (List.mem_append_right _ hp))
  rw [hb] at k
  rw [hb'] at k'
  split at k <;> cases k
  split at k' <;> cases k'
  obtain ⟨⟨⟨p1, p1m, e1⟩, l1⟩, ⟨⟨p2, p2m, e2⟩, l2⟩⟩ := hx i
  obtain ⟨⟨⟨p3, p3m, e3⟩, l3⟩, ⟨⟨p4, p4m, e4⟩, l4⟩⟩ := hx' i
  obtain ⟨y1, y1m, d1⟩ := m2 p1 p1m
  obtain ⟨y2, y2m, d2⟩ := m2 p2 p2m
  obtain ⟨y3, y3m, d3⟩ := m1 p3 p3m
  obtain ⟨y4, y4m, d4⟩ := m1 p4 p4m
  have q1 := l3 ⟨y1, y1m, rfl⟩
  have q2 := l4 ⟨y2, y2m, rfl⟩
  have q3 := l1 ⟨y3, y3m, rfl⟩
  have q4 := l2 ⟨y4, y4m, rfl⟩
  rw [abs_le] at d1 d2 d3 d4
  constructor <;> rw [abs_le] <;> constructor <;> linarith [d1.1, d1.2, d2.1, d2.2, d3.1, d3.2, d4.1, d4.2]
end

section
variable [Tol ℝ] [LawfulTol ℝ] {ε : ℝ}

theorem planeLine_near (he : 0 < ε) (po po' n o o' d p : Vec ℝ 3) (hn : n ⬝ᵥ n = 1) (hd : d ⬝ᵥ d = 1)
    (h : intersectPlaneLine ⟨po, n⟩ ⟨o, d⟩ ε = some p) :
    ∃ p', intersectPlaneLine ⟨po', n⟩ ⟨o', d⟩ ε = some p' ∧ Spec.dist p p' ≤ Spec.dist o o' + (Spec.dist po po' + Spec.dist o o') / ε := by
  simp only [intersectPlaneLine, dot_eq, vsub_eq, vadd_eq, vscale_eq] at h ⊢
  rcases hz : Tol.isZero (d ⬝ᵥ n) ε with _ | _
  · rw [hz] at h
    simp only [Bool.false_eq_true, if_false, Option.some.injEq] at h ⊢
    refine ⟨_, rfl, ?_⟩
    subst h
    have hc := TolE.of_not_zero he hz
    have h1 := dist_triangle' (o + ((po - o) ⬝ᵥ n / (d ⬝ᵥ n)) • d) (o' + ((po - o) ⬝ᵥ n / (d ⬝ᵥ n)) • d) (o' + ((po' - o') ⬝ᵥ n / (d ⬝ᵥ n)) • d)
    rw [dist_add_right', dist_smul_unit _ _ hd, ← sub_div, ← sub_dotProduct, abs_div] at h1
    refine h1.trans (add_le_add le_rfl ?_)
    have h2 := abs_dp_unit_le (po - o - (po' - o')) n hn
    have h3 : Spec.norm (po - o - (po' - o')) ≤ Spec.dist po po' + Spec.dist o o' := by
      have := dist_triangle' (po - o) (po' - o) (po' - o')
      rw [norm_sub_dist]
      refine this.trans (le_of_eq ?_)
      congr 1
      · rw [spec_dist_eq, spec_dist_eq, sub_sub_sub_cancel_right]
      · rw [dist_comm' o o', spec_dist_eq, spec_dist_eq, sub_sub_sub_cancel_left]
    exact div_le_div₀ (add_nonneg (dist_nonneg' _ _) (dist_nonneg' _ _)) (h2.trans h3) he hc
  · rw [hz] at h; simp at h

theorem lines2_near (he : 0 < ε) (a a' d c c' e p : Vec ℝ 2) (hd : d ⬝ᵥ d = 1) (hne : e ⬝ᵥ e = 1)
    (h : intersectLine2 ⟨a, d⟩ ⟨c, e⟩ ε = some p) :
    ∃ p', intersectLine2 ⟨a', d⟩ ⟨c', e⟩ ε = some p' ∧ Spec.dist p p' ≤ Spec.dist a a' + (Spec.dist a a' + Spec.dist c c') / ε := by
  have hx : ∀ x : Vec ℝ 2, x 0 * e 1 - x 1 * e 0 = x ⬝ᵥ ![e 1, -e 0] := fun x => by simp [dotProduct, Fin.sum_univ_two]; ring
  have hu : (![e 1, -e 0] : Vec ℝ 2) ⬝ᵥ ![e 1, -e 0] = 1 := by
    rw [← hne]; simp [dotProduct, Fin.sum_univ_two]; ring
  simp only [intersectLine2, vsub_eq, vadd_eq, vscale_eq, stdAbs_eq, hx] at h ⊢
  generalize d 0 * e 1 - e 0 * d 1 = D at h ⊢
  rcases hz : Tol.isZero |D| ε with _ | _
  · rw [hz] at h
    simp only [Bool.false_eq_true, if_false, Option.some.injEq] at h ⊢
    refine ⟨_, rfl, ?_⟩
    subst h
    have hc := TolE.of_not_zero he hz
    rw [abs_abs] at hc
    have h1 := dist_triangle' (a + ((c - a) ⬝ᵥ ![e 1, -e 0] / D) • d) (a' + ((c - a) ⬝ᵥ ![e 1, -e 0] / D) • d) (a' + ((c' - a') ⬝ᵥ ![e 1, -e 0] / D) • d)
    rw [dist_add_right', dist_smul_unit _ _ hd, ← sub_div, ← sub_dotProduct, abs_div] at h1
    refine h1.trans (add_le_add le_rfl ?_)
    have h2 := abs_dp_unit_le (c - a - (c' - a')) _ hu
    have h3 : Spec.norm (c - a - (c' - a')) ≤ Spec.dist a a' + Spec.dist c c' := by
      have := dist_triangle' (c - a) (c' - a) (c' - a')
      rw [norm_sub_dist]
      refine this.trans (le_of_eq ?_)
      rw [add_comm]
      congr 1
      · rw [dist_comm' a a', spec_dist_eq, spec_dist_eq, sub_sub_sub_cancel_left]
      · rw [spec_dist_eq, spec_dist_eq, sub_sub_sub_cancel_right]
    exact div_le_div₀ (add_nonneg (dist_nonneg' _ _) (dist_nonneg' _ _)) (h2.trans h3) he hc
  · rw [hz] at h; simp at h

theorem sqrt_near (he : 0 < ε) {x y : ℝ} (hx : ε ≤ x) (hy : ε ≤ y) : |Real.sqrt x - Real.sqrt y| ≤ |x - y| / (2 * Real.sqrt ε) := by
  have hs : 0 < Real.sqrt ε := Real.sqrt_pos.2 he
  have h1 := Real.sqrt_le_sqrt hx
  have h2 := Real.sqrt_le_sqrt hy
  rw [le_div_iff₀ (by linarith)]
  have e1 : x - y = (Real.sqrt x - Real.sqrt y) * (Real.sqrt x + Real.sqrt y) := by
    have a1 := Real.mul_self_sqrt (he.le.trans hx)
    have a2 := Real.mul_self_sqrt (he.le.trans hy)
    linear_combination a2 - a1
  rw [e1, abs_mul]
  refine mul_le_mul_of_nonneg_left ?_ (abs_nonneg _)
  rw [abs_of_pos (by linarith)]; linarith

theorem sphereLine_near (he : 0 < ε) (c o d : Vec ℝ 3) (r r' : ℝ) (hd : d ⬝ᵥ d = 1) (p q p' q' : Vec ℝ 3)
    (h : intersectSphereLine ⟨c, r⟩ ⟨o, d⟩ ε = ⟨some p, some q⟩) (h' : intersectSphereLine ⟨c, r'⟩ ⟨o, d⟩ ε = ⟨some p', some q'⟩) :
    Spec.dist p p' ≤ |r ^ 2 - r' ^ 2| / Real.sqrt ε ∧ Spec.dist q q' ≤ |r ^ 2 - r' ^ 2| / Real.sqrt ε := by
  rw [sphereLine_eval _ _ _ _ _ he] at h h'
  split at h
  · rename_i l
    split at h'
    · rename_i l'
      have k := TolE.of_less he l
      have k' := TolE.of_less he l'
      rw [zero_add] at k k'
      have h1 := sqrt_near he k k'
      have hD : discr c o d r - discr c o d r' = 4 * (r ^ 2 - r' ^ 2) := by unfold discr; rw [hd]; ring
      rw [hD, abs_mul, abs_of_pos (by norm_num : (0 : ℝ) < 4)] at h1
      have hs : 0 < Real.sqrt ε := Real.sqrt_pos.2 he
      have h2 : 4 * |r ^ 2 - r' ^ 2| / (2 * Real.sqrt ε) = 2 * (|r ^ 2 - r' ^ 2| / Real.sqrt ε) := by field_simp; ring
      rw [h2] at h1
      simp only [SphereIntersection.mk.injEq, Option.some.injEq] at h h'
      rw [← h.1, ← h.2, ← h'.1, ← h'.2]
      simp only [pointAt_eq]
      rw [dist_smul_unit _ _ hd, dist_smul_unit _ _ hd, hd, ← sub_div, ← sub_div, abs_div, abs_div, mul_one, abs_of_pos (by norm_num : (0 : ℝ) < 2), add_sub_add_left_eq_sub,
        sub_sub_sub_cancel_left, abs_sub_comm (Real.sqrt (discr c o d r'))]
      constructor <;> linarith
    · split at h' <;> simp at h'
  · split at h <;> simp at h

/-- **C140** (plane and line) When plane and line are moved, the line still hits the plane, and the point moves at most `1/ε` times as far as the plane and `1 + 1/ε`
times as far as the line. -/
theorem C140_plane_line (he : 0 < ε) (po po' n o o' d p : Vec ℝ 3) (hn : n ≠ 0) (hd : d ≠ 0)
    (h : intersectPlaneLine (Plane.make po n) (Line.make o d) ε = some p) :
    ∃ p', intersectPlaneLine (Plane.make po' n) (Line.make o' d) ε = some p' ∧
      Spec.dist p p' ≤ Spec.dist o o' + (Spec.dist po po' + Spec.dist o o') / ε := by
  have hu := normalize_dp_self hd
  have hv := normalize_dp_self hn
  exact planeLine_near he po po' _ o o' _ p hv hu h

/-- **C140** (lines of the plane) When two lines are moved they still meet, and the point moves at most `1/ε` times as far as the one and `1 + 1/ε`
times as far as the other. -/
theorem C140_lines2 (he : 0 < ε) (a a' d c c' e p : Vec ℝ 2) (hd : d ≠ 0) (hne : e ≠ 0)
    (h : intersectLine2 (Line.make a d) (Line.make c e) ε = some p) :
    ∃ p', intersectLine2 (Line.make a' d) (Line.make c' e) ε = some p' ∧
      Spec.dist p p' ≤ Spec.dist a a' + (Spec.dist a a' + Spec.dist c c') / ε := by
  exact lines2_near he a a' _ c c' _ p (normalize_dp_self hd) (normalize_dp_self hne) h

/-- **C140** (sphere and line) When the radius changes, each of two points moves by at most the change of the square of the radius over `√ε`. -/
theorem C140_sphere_line (he : 0 < ε) (c o d : Vec ℝ 3) (r r' : ℝ) (hd : d ≠ 0) (p q p' q' : Vec ℝ 3)
    (h : intersectSphereLine ⟨c, r⟩ (Line.make o d) ε = ⟨some p, some q⟩) (h' : intersectSphereLine ⟨c, r'⟩ (Line.make o d) ε = ⟨some p', some q'⟩) :
    Spec.dist p p' ≤ |r ^ 2 - r' ^ 2| / Real.sqrt ε ∧ Spec.dist q q' ≤ |r ^ 2 - r' ^ 2| / Real.sqrt ε := by
  exact sphereLine_near he c o _ r r' (normalize_dp_self hd) p q p' q' h h'
end

section Examples
attribute [local instance] realTol realTol_lawful

theorem ex_move : Spec.dist (![0, 0, 0] : Vec ℝ 3) ![3, 4, 0] = 5 := by
  rw [spec_dist_eq, Real.sqrt_eq_iff_mul_self_eq (dp_self_nonneg _) (by norm_num)]; simp [dotProduct, Fin.sum_univ_three]; norm_num
example : |distVecLine (![0, 0, 0] : Vec ℝ 3) (Line.make ![0, 0, 0] ![0, 3, 4]) - distVecLine ![3, 4, 0] (Line.make ![3, 4, 0] ![0, 3, 4])| ≤ 5 + 5 := by
  have := C140_point_line ![0, 0, 0] ![3, 4, 0] ![0, 0, 0] ![3, 4, 0] _ ex_034_ne
  rwa [ex_move] at this
example := C140_point_plane ![0, 0, 0] ![3, 4, 0] ![1, 2, 3] ![3, 4, 0] _ ex_034_ne
example := C140_point_sphere ![0, 0, 0] ![3, 4, 0] ![1, 2, 3] ![3, 4, 0] 5 6
example := C140_point_ray_partial true ![1, 2, 3] ![3, 4, 0] _ _ _ ex_034_ne _ _ ex_ray034 ex_ray034
example := C140_point_ray_counterexample true (by show (1 / 1000 : ℝ) < 1; norm_num) (1 / 1000000) (by norm_num) (by show (1 / 1000000 : ℝ) < 1 / 1000; norm_num)
example := C140_point_segment_partial (![0, 0, 0] : Vec ℝ 3) ![3, 4, 0] ![1, 2, 3] ![3, 3, 3]
example := C140_point_segment_counterexample 1000 (1 / 2) (by norm_num) (by norm_num) (by norm_num)
open Classical in
/-- The points 0 and 4 are moved to 1 and 3. -/
example (e e' : Vec ℝ 1 × String) (h1 : (KdTree.build 8 [(![0], "a"), (![4], "b")]).nearest ![5] = .ok e)
    (h2 : (KdTree.build 8 [(![1], "a"), (![3], "b")]).nearest ![6] = .ok e') : |Spec.dist e.1 ![5] - Spec.dist e'.1 ![6]| ≤ Spec.dist (![5] : Vec ℝ 1) ![6] + 1 := by
  refine C140_nearest _ _ _ _ 1 ?_ e e' h1 h2
  have d : ∀ x y : ℝ, Spec.dist (![x] : Vec ℝ 1) ![y] = |x - y| := fun x y => by simp [Spec.dist, Real.sqrt_sq_eq_abs]
  refine .cons ?_ (.cons ?_ .nil)
  · show Spec.dist (![0] : Vec ℝ 1) ![1] ≤ 1; rw [d]; norm_num
  · show Spec.dist (![4] : Vec ℝ 1) ![3] ≤ 1; rw [d]; norm_num
attribute [local instance] lim1000 in
/-- The points (0,0,0) and (4,4,4) are moved to (1,0,0) and (4,4,3). -/
example (b b' : AABB ℝ 3) (hb : makeAABB false [(![0, 0, 0] : Vec ℝ 3), ![4, 4, 4]] = .ok b) (hb' : makeAABB false [(![1, 0, 0] : Vec ℝ 3), ![4, 4, 3]] = .ok b') (i : Fin 3) :
    |b.min i - b'.min i| ≤ 1 ∧ |b.max i - b'.max i| ≤ 1 := by
  refine C140_box false _ _ 1 ?_ (by simp) ?_ b b' hb hb' i
  · refine .cons (fun i => ?_) (.cons (fun i => ?_) .nil) <;> fin_cases i <;> simp
    norm_num
  · intro p hp i
    show -1000 ≤ p i ∧ p i ≤ 1000
    simp at hp
    rcases hp with rfl | rfl | rfl | rfl <;> fin_cases i <;> norm_num
/-- The plane z = 4 and the line along (0,3,4). -/
example : ∃ p', intersectPlaneLine (Plane.make (![1, 2, 3] : Vec ℝ 3) ![0, 0, 1]) (Line.make ![3, 4, 0] ![0, 3, 4]) (1 / 1000) = some p' := by
  obtain ⟨p, hp⟩ := (C33_complete (ε := 1 / 1000) (by norm_num) ![0, 0, 4] ![0, 0, 1] ![0, 0, 0] ![0, 3, 4] ex_neZ ex_034_ne).1 ex_slant
  obtain ⟨p', h, -⟩ := C140_plane_line (by norm_num) _ ![1, 2, 3] _ _ ![3, 4, 0] _ p ex_neZ ex_034_ne hp
  exact ⟨p', h⟩
example : ∃ p', intersectLine2 (Line.make (![5, 6] : Vec ℝ 2) ![1, 0]) (Line.make ![7, 8] ![0, 1]) (1 / 1000) = some p' := by
  have h1 : (![1, 0] : Vec ℝ 2) ≠ 0 := by intro h; have := congrFun h 0; simp at this
  have h2 : (![0, 1] : Vec ℝ 2) ≠ 0 := by intro h; have := congrFun h 1; simp at this
  obtain ⟨p, hp⟩ := (C28_complete (ε := 1 / 1000) (by norm_num) ![0, 0] ![1, 0] ![0, 0] ![0, 1] h1 h2).1
    (by unfold Spec.AngleAbove Spec.gram; simp [Fin.sum_univ_two]; norm_num)
  obtain ⟨p', h, -⟩ := C140_lines2 (by norm_num) _ ![5, 6] _ _ ![7, 8] _ p h1 h2 hp
  exact ⟨p', h⟩
/-- Spheres of radius 5 and 6 about 0 and a line at distance 3. -/
example : ∃ p q p' q', intersectSphereLine ⟨0, 5⟩ (Line.make ![0, 3, 0] (![1, 0, 0] : Vec ℝ 3)) (1 / 4) = ⟨some p, some q⟩ ∧
    intersectSphereLine ⟨0, 6⟩ (Line.make ![0, 3, 0] (![1, 0, 0] : Vec ℝ 3)) (1 / 4) = ⟨some p', some q'⟩ ∧ Spec.dist p p' ≤ |5 ^ 2 - 6 ^ 2| / Real.sqrt (1 / 4) := by
  obtain ⟨p, q, h, -⟩ := C36_crossing (ε := 1 / 4) (by norm_num) 0 ![0, 3, 0] ![1, 0, 0] 5 3 ex_x_ne (by norm_num) ex_line_dist (by norm_num)
  obtain ⟨p', q', h', -⟩ := C36_crossing (ε := 1 / 4) (by norm_num) 0 ![0, 3, 0] ![1, 0, 0] 6 3 ex_x_ne (by norm_num) ex_line_dist (by norm_num)
  exact ⟨p, q, p', q', h, h', (C140_sphere_line (by norm_num) 0 _ _ 5 6 ex_x_ne p q p' q' h h').1⟩
end Examples
end Verif
