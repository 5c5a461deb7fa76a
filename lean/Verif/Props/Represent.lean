import Verif.Props.Swap

set_option linter.unusedSectionVars false

/-
C138: results depend on the line, plane or segment, not on the points and directions it is given by.
-/
namespace Verif
open Matrix

/-! ### Two descriptions of the same line or plane -/

theorem same_line {D : ℕ} {o d o' d' : Vec ℝ D} (hd : d ≠ 0) (hd' : d' ≠ 0) (h : Spec.line o d = Spec.line o' d') :
    ∃ k σ : ℝ, σ * σ = 1 ∧ o' = o + k • normalize d ∧ normalize d' = σ • normalize d := by
  rw [← line_normalize o hd, ← line_normalize o' hd'] at h
  obtain ⟨k, hk⟩ : o' ∈ Spec.line o (normalize d) := by rw [h]; exact ⟨0, by rw [pointAt_eq]; simp⟩
  obtain ⟨j, hj⟩ : o' + normalize d' ∈ Spec.line o (normalize d) := by rw [h]; exact ⟨1, by rw [pointAt_eq]; simp⟩
  rw [pointAt_eq] at hk hj
  have e : normalize d' = (j - k) • normalize d := by
    rw [hk] at hj
    rw [sub_smul]
    have := congrArg (fun v => v - (o + k • normalize d)) hj
    simp only [add_sub_cancel_left] at this
    rw [this]; abel
  refine ⟨k, j - k, ?_, hk, e⟩
  have h1 := normalize_dp_self hd'
  rw [e, dp_smul_self, normalize_dp_self hd] at h1
  linarith [sq (j - k)]

theorem same_plane {p n p' n' : Vec ℝ 3} (hn : n ≠ 0) (hn' : n' ≠ 0) (h : Spec.plane p n = Spec.plane p' n') :
    ∃ σ : ℝ, (σ = 1 ∨ σ = -1) ∧ normalize n' = σ • normalize n ∧ (p' - p) ⬝ᵥ normalize n = 0 := by
  rw [← plane_normalize p hn, ← plane_normalize p' hn'] at h
  set u := normalize n
  set u' := normalize n'
  have hu : u ⬝ᵥ u = 1 := normalize_dp_self hn
  have hu' : u' ⬝ᵥ u' = 1 := normalize_dp_self hn'
  have hmem : ∀ x, (x - p) ⬝ᵥ u = 0 ↔ (x - p') ⬝ᵥ u' = 0 := by
    intro x
    have : x ∈ Spec.plane p u ↔ x ∈ Spec.plane p' u' := by rw [h]
    exact this
  have hp : (p - p') ⬝ᵥ u' = 0 := (hmem p).1 (by simp)
  have hp' : (p' - p) ⬝ᵥ u = 0 := (hmem p').2 (by simp)
  have hv : ∀ v, v ⬝ᵥ u = 0 → v ⬝ᵥ u' = 0 := by
    intro v hv
    have := (hmem (p + v)).1 (by rwa [add_sub_cancel_left])
    rw [add_sub_right_comm, add_dotProduct, hp, zero_add] at this
    exact this
  have e : u' = (u' ⬝ᵥ u) • u := by
    have h0 := hv (u' - (u' ⬝ᵥ u) • u) (by rw [sub_dotProduct, smul_dotProduct, hu]; simp)
    have h1 : (u' - (u' ⬝ᵥ u) • u) ⬝ᵥ (u' - (u' ⬝ᵥ u) • u) = 0 := by
      rw [dotProduct_sub, h0, dotProduct_smul, sub_dotProduct, smul_dotProduct, hu]; simp
    exact sub_eq_zero.1 (dp_self_eq_zero.1 h1)
  refine ⟨u' ⬝ᵥ u, ?_, e, hp'⟩
  have h1 := hu'
  rw [e, dp_smul_self, hu, mul_one] at h1
  have h2 : (u' ⬝ᵥ u) * (u' ⬝ᵥ u) = 1 := by rw [← sq]; exact h1
  exact mul_self_eq_one_iff.1 h2

section
variable {K : Type*} [Field K] [LinearOrder K] [IsStrictOrderedRing K] [Tol K] [LawfulTol K] {D : ℕ}

/-- The closest parameters for another description of the first line. -/
theorem cpol_repr {ε : K} (he : 0 < ε) (o d o' d' : Vec K D) {k σ : K} (hσ : σ * σ = 1) :
    closestPointOnLineParameters (o + k • d) (σ • d) o' d' ε =
      (closestPointOnLineParameters o d o' d' ε).map fun p => ⟨σ * (p.t - k), p.s⟩ := by
  simp only [closestPointOnLineParameters, dot_eq, vsub_eq]
  have e0 : o + k • d - o' = (o - o') + k • d := by abel
  rw [e0]
  simp only [smul_dotProduct, dotProduct_smul, dotProduct_add, smul_eq_mul]
  rw [dotProduct_comm d' d]
  generalize d ⬝ᵥ d = a
  generalize d ⬝ᵥ d' = b
  generalize d' ⬝ᵥ d' = c
  generalize d ⬝ᵥ (o - o') = x
  generalize d' ⬝ᵥ (o - o') = y
  have e1 : σ * (σ * a) * c - σ * b * (σ * b) = a * c - b * b := by linear_combination (a * c - b * b) * hσ
  rw [e1]
  split_ifs with hz
  · rfl
  · have h0 : a * c - b * b ≠ 0 := TolE.ne_zero he (by simpa using hz)
    simp only [Option.map_some, Option.some.injEq, CPOLParameters.mk.injEq]
    constructor
    · rw [div_sub' h0, mul_div_assoc', div_left_inj' h0]; ring
    · rw [div_left_inj' h0]; linear_combination (a * (y + k * b) - b * (x + k * a)) * hσ

theorem cpol_repr_right {ε : K} (he : 0 < ε) (o d o' d' : Vec K D) {k σ : K} (hσ : σ * σ = 1) :
    closestPointOnLineParameters o d (o' + k • d') (σ • d') ε =
      (closestPointOnLineParameters o d o' d' ε).map fun p => ⟨p.t, σ * (p.s - k)⟩ := by
  rw [cpol_swap, cpol_repr he _ _ _ _ hσ, cpol_swap o' d' o d]
  cases closestPointOnLineParameters o' d' o d ε <;> rfl

theorem repr_point (o d : Vec K D) {k σ t : K} (hσ : σ * σ = 1) : vadd (o + k • d) (vscale (σ • d) (σ * (t - k))) = vadd o (vscale d t) := by
  funext i
  simp only [vadd, vscale, Pi.add_apply, Pi.smul_apply, smul_eq_mul]
  linear_combination (d i * (t - k)) * hσ

/-! ### Segments given the other way round -/

/-- The same segment from its other end. -/
def Segment.flip (s : Segment K D) : Segment K D := ⟨s.target, s.source⟩

theorem flip_dir (s : Segment K D) : s.flip.source = s.source + (1 : K) • vsub s.target s.source ∧
    vsub s.flip.target s.flip.source = (-1 : K) • vsub s.target s.source := by
  constructor <;> funext i <;> simp [Segment.flip, vsub]

variable {ε : K}

/-- **C138** (segments of space) Neither segment's direction matters. -/
theorem C138_segments3 (he : 0 < ε) (hs : ∀ t : K, Tol.isLess (1 - t) 0 ε = Tol.isGreater t 1 ε) (a b : Segment K 3) :
    intersectSegment3 a.flip b ε = intersectSegment3 a b ε ∧ intersectSegment3 a b.flip ε = intersectSegment3 a b ε := by
  have hs' : ∀ t : K, Tol.isGreater (1 - t) 1 ε = Tol.isLess t 0 ε := fun t => by rw [← hs, sub_sub_cancel]
  have hm : ∀ t : K, -1 * (t - 1) = 1 - t := fun t => by ring
  constructor
  · simp only [intersectSegment3]
    rw [(flip_dir a).2, (flip_dir a).1, cpol_repr he _ _ _ _ (by norm_num)]
    cases closestPointOnLineParameters a.source (vsub a.target a.source) b.source (vsub b.target b.source) ε with
    | none => rfl
    | some p =>
      simp only [Option.map_some]
      rw [repr_point _ _ (by norm_num), hm, hs, hs']
      have : ∀ x y z w : Bool, (x || y || z || w) = (x || y || w || z) := by decide
      rw [this]
  · simp only [intersectSegment3]
    rw [(flip_dir b).2, (flip_dir b).1, cpol_repr_right he _ _ _ _ (by norm_num)]
    cases closestPointOnLineParameters a.source (vsub a.target a.source) b.source (vsub b.target b.source) ε with
    | none => rfl
    | some p =>
      simp only [Option.map_some]
      rw [hm, hs, hs']
      have : ∀ x y z w : Bool, (x || y || z || w) = (y || x || z || w) := by decide
      rw [this]

/-- **C138** (segment and ray) -/
theorem C138_segment_ray (he : 0 < ε) (hs : ∀ t : K, Tol.isLess (1 - t) 0 ε = Tol.isGreater t 1 ε) (a : Segment K 3) (r : Ray K 3) :
    intersectSegmentRay a.flip r ε = intersectSegmentRay a r ε := by
  have hs' : ∀ t : K, Tol.isGreater (1 - t) 1 ε = Tol.isLess t 0 ε := fun t => by rw [← hs, sub_sub_cancel]
  have hm : ∀ t : K, -1 * (t - 1) = 1 - t := fun t => by ring
  simp only [intersectSegmentRay]
  rw [(flip_dir a).2, (flip_dir a).1, cpol_repr he _ _ _ _ (by norm_num)]
  cases closestPointOnLineParameters a.source (vsub a.target a.source) r.origin r.direction ε with
  | none => rfl
  | some p =>
    simp only [Option.map_some]
    rw [hm, hs, hs', Bool.or_comm (Tol.isGreater p.t 1 ε)]

/-- **C138** (segments of the plane) -/
theorem C138_segments2 (he : 0 < ε) (hz : ∀ x : K, Tol.isZero (-x) ε = Tol.isZero x ε)
    (hs : ∀ t : K, Tol.isLess (1 - t) 0 ε = Tol.isGreater t 1 ε) (dbg : Bool) (a b : Segment K 2) :
    intersectSegment2 dbg a.flip b ε = intersectSegment2 dbg a b ε ∧ intersectSegment2 dbg a b.flip ε = intersectSegment2 dbg a b ε := by
  have hs' : ∀ t : K, Tol.isGreater (1 - t) 1 ε = Tol.isLess t 0 ε := fun t => by rw [← hs, sub_sub_cancel]
  have key : ∀ a b : Segment K 2, intersectSegment2 dbg a.flip b ε = intersectSegment2 dbg a b ε := by
    rintro ⟨a, b⟩ ⟨c, d⟩
    have hdet : det2 b a c d = -det2 a b c d := by unfold det2; ring
    rcases h0 : Tol.isZero (det2 a b c d) ε with _ | _
    · obtain ⟨t, s, e1, -, e2⟩ := intersectSegment2_eval dbg he a b c d h0
      obtain ⟨t', s', -, e3, e4⟩ := intersectSegment2_eval dbg he b a c d (by rw [hdet, hz]; exact h0)
      have hflip : (fun i => b i + (1 - t) * (a i - b i)) = fun i => a i + t * (b i - a i) := by funext i; ring
      obtain ⟨rfl, rfl⟩ := e3 (1 - t) s (by rw [hflip, e1])
      show intersectSegment2 dbg ⟨b, a⟩ ⟨c, d⟩ ε = _
      have a1 : Tol.isLess (1 - t) 0 ε = Tol.isLess 1 t ε := by rw [hs, TolE.greater_eq he]
      have a2 : Tol.isLess 1 (1 - t) ε = Tol.isLess t 0 ε := by rw [← TolE.greater_eq he, hs']
      rw [e4, e2, hflip, a1, a2]
      have : ∀ x y z w : Bool, (x || y || z || w) = (x || y || w || z) := by decide
      rw [this]
    · have hn : ∀ a b : Vec K 2, Tol.isZero (det2 a b c d) ε = true → intersectSegment2 dbg ⟨a, b⟩ ⟨c, d⟩ ε = .ok none := by
        intro a b h
        simp only [intersectSegment2]
        exact if_pos h
      show intersectSegment2 dbg ⟨b, a⟩ ⟨c, d⟩ ε = _
      rw [hn a b h0, hn b a (by rw [hdet, hz]; exact h0)]
  exact ⟨key a b, by rw [C137_segments2_point he hz, key, C137_segments2_point he hz]⟩
end

section
variable [Tol ℝ] [LawfulTol ℝ] {ε : ℝ}

/-- **C138** (segment and ray, distance) When the directions are not nearly parallel, the direction of the segment does not matter. -/
theorem C138_distance_segment_ray (a : Segment ℝ 3) (r : Ray ℝ 3) (hn : isZero (Spec.gram (a.target - a.source) r.direction) = false) :
    distSegmentRay a.flip r = distSegmentRay a r := by
  have hep := eps_pos (K := ℝ)
  have hm : ∀ t : ℝ, -1 * (t - 1) = 1 - t := fun t => by ring
  simp only [distSegmentRay]
  rw [(flip_dir a).2, (flip_dir a).1, cpol_repr hep _ _ _ _ (by norm_num)]
  rcases closest_cases hep a.source (a.target - a.source) r.origin r.direction with ⟨-, h⟩ | ⟨p, hp, -⟩
  · rw [isZero] at hn; rw [hn] at h; cases h
  · rw [vsub_eq, hp]
    simp only [Option.map_some, hm]
    congr 3
    simp only [calcSegmentPoint, Segment.flip, sub_neg]
    by_cases h0 : p.t < 0
    · rw [if_neg (by linarith), if_pos (by linarith), if_pos h0]
    · by_cases h1 : 1 < p.t
      · rw [if_pos h1, if_neg h0, if_pos h1]
      · rw [if_neg h1, if_neg (by linarith), if_neg h0, if_neg h1]
        funext i; simp only [vadd, vscale, vsub]; ring

/-! ### Lines -/

/-- **C138** (distances from lines) Only the line counts, not the point and the direction it is given by. -/
theorem C138_line_distances {D : ℕ} (o d o' d' : Vec ℝ D) (hd : d ≠ 0) (hd' : d' ≠ 0) (h : Spec.line o d = Spec.line o' d') (v : Vec ℝ D) (r : Ray ℝ D) :
    distVecLine v (Line.make o' d') = distVecLine v (Line.make o d) ∧ distLineRay (Line.make o' d') r = distLineRay (Line.make o d) r := by
  have hv : ∀ v, distVecLine v (Line.make o' d') = distVecLine v (Line.make o d) := fun v =>
    (C20_point_line v o' d' hd').unique (by rw [← h]; exact C20_point_line v o d hd)
  refine ⟨hv v, ?_⟩
  obtain ⟨k, σ, hσ, h1, h2⟩ := same_line hd hd' h
  simp only [distLineRay]
  rw [hv]
  have e1 : (Line.make o' d').origin = o + k • normalize d := h1
  have e2 : (Line.make o' d').direction = σ • normalize d := h2
  rw [e1, e2, cpol_repr eps_pos _ _ _ _ hσ]
  have e3 : (Line.make o d).origin = o := rfl
  have e4 : (Line.make o d).direction = normalize d := rfl
  rw [e3, e4]
  cases closestPointOnLineParameters o (normalize d) r.origin r.direction with
  | none => rfl
  | some p => simp only [Option.map_some]; rw [repr_point _ _ hσ]

theorem line2_repr (he : 0 < ε) (o n : Vec ℝ 2) {k σ : ℝ} (hσ : σ * σ = 1) (l : Line ℝ 2) :
    intersectLine2 ⟨o + k • n, σ • n⟩ l ε = intersectLine2 ⟨o, n⟩ l ε := by
  simp only [intersectLine2]
  have e : (σ • n) 0 * l.direction 1 - l.direction 0 * (σ • n) 1 = σ * (n 0 * l.direction 1 - l.direction 0 * n 1) := by
    simp only [Pi.smul_apply, smul_eq_mul]; ring
  have ha : stdAbs (σ * (n 0 * l.direction 1 - l.direction 0 * n 1)) = stdAbs (n 0 * l.direction 1 - l.direction 0 * n 1) := by
    rcases mul_self_eq_one_iff.1 hσ with rfl | rfl
    · rw [one_mul]
    · rw [neg_one_mul, SignedOps.abs_neg]
  rw [e, ha]
  split_ifs with hz
  · rfl
  · have h0 : n 0 * l.direction 1 - l.direction 0 * n 1 ≠ 0 := by
      intro h0
      rw [h0] at hz
      exact TolE.ne_zero he (by simpa using hz) (by simp [stdAbs])
    have hσ0 : σ ≠ 0 := by rintro rfl; simp at hσ
    have ht : (vsub l.origin (o + k • n) 0 * l.direction 1 - vsub l.origin (o + k • n) 1 * l.direction 0) /
        (σ * (n 0 * l.direction 1 - l.direction 0 * n 1)) =
        σ * ((vsub l.origin o 0 * l.direction 1 - vsub l.origin o 1 * l.direction 0) / (n 0 * l.direction 1 - l.direction 0 * n 1) - k) := by
      rw [div_eq_iff (mul_ne_zero hσ0 h0)]
      have : σ * ((vsub l.origin o 0 * l.direction 1 - vsub l.origin o 1 * l.direction 0) / (n 0 * l.direction 1 - l.direction 0 * n 1) - k) *
          (σ * (n 0 * l.direction 1 - l.direction 0 * n 1)) = (σ * σ) * ((vsub l.origin o 0 * l.direction 1 - vsub l.origin o 1 * l.direction 0) /
          (n 0 * l.direction 1 - l.direction 0 * n 1) * (n 0 * l.direction 1 - l.direction 0 * n 1) - k * (n 0 * l.direction 1 - l.direction 0 * n 1)) := by ring
      rw [this, hσ, div_mul_cancel₀ _ h0]
      simp only [vsub, Pi.add_apply, Pi.smul_apply, smul_eq_mul]; ring
    rw [ht, repr_point _ _ hσ]

/-- **C138** (lines of the plane) -/
theorem C138_lines2 (he : 0 < ε) (o d o' d' : Vec ℝ 2) (hd : d ≠ 0) (hd' : d' ≠ 0) (h : Spec.line o d = Spec.line o' d') (l : Line ℝ 2) :
    intersectLine2 (Line.make o' d') l ε = intersectLine2 (Line.make o d) l ε ∧ intersectLine2 l (Line.make o' d') ε = intersectLine2 l (Line.make o d) ε := by
  suffices key : intersectLine2 (Line.make o' d') l ε = intersectLine2 (Line.make o d) l ε from
    ⟨key, by rw [C137_lines2_point he, key, C137_lines2_point he]⟩
  obtain ⟨k, σ, hσ, h1, h2⟩ := same_line hd hd' h
  rw [Line.make, h1, h2, line2_repr he _ _ hσ]
  rfl

/-- **C138** (lines of space) -/
theorem C138_lines3 (o d o' d' : Vec ℝ 3) (hd : d ≠ 0) (hd' : d' ≠ 0) (h : Spec.line o d = Spec.line o' d') (l : Line ℝ 3) :
    intersectLine3 (Line.make o' d') l ε = intersectLine3 (Line.make o d) l ε ∧ intersectLine3 l (Line.make o' d') ε = intersectLine3 l (Line.make o d) ε := by
  obtain ⟨k, σ, hσ, h1, h2⟩ := same_line hd hd' h
  constructor
  · simp only [intersectLine3, Line.make, h2, h1]
    rw [cpol_repr eps_pos _ _ _ _ hσ]
    cases closestPointOnLineParameters o (normalize d) l.origin l.direction with
    | none => rfl
    | some p => simp only [Option.map_some]; rw [repr_point _ _ hσ]; rfl
  · simp only [intersectLine3, Line.make, h2, h1]
    rw [cpol_repr_right eps_pos _ _ _ _ hσ]
    cases closestPointOnLineParameters l.origin l.direction o (normalize d) with
    | none => rfl
    | some p => simp only [Option.map_some]; rw [repr_point _ _ hσ]; rfl

/-- **C138** (sphere and line) The same points; their order may change. -/
theorem C138_sphere_line (o d o' d' : Vec ℝ 3) (hd : d ≠ 0) (hd' : d' ≠ 0) (h : Spec.line o d = Spec.line o' d') (s : Sphere ℝ) :
    intersectSphereLine s (Line.make o' d') ε = intersectSphereLine s (Line.make o d) ε ∨
    ∃ p q, intersectSphereLine s (Line.make o d) ε = ⟨some p, some q⟩ ∧ intersectSphereLine s (Line.make o' d') ε = ⟨some q, some p⟩ := by
  obtain ⟨k, σ, hσ, h1, h2⟩ := same_line hd hd' h
  have hu := normalize_dp_self hd
  simp only [intersectSphereLine, Line.make, h2, h1, dot_eq, vsub_eq]
  generalize normalize d = n at *
  have e0 : o + k • n - s.origin = (o - s.origin) + k • n := by abel
  rw [e0, dp_smul_self, hu]
  have e1 : (o - s.origin + k • n) ⬝ᵥ (o - s.origin + k • n) = (o - s.origin) ⬝ᵥ (o - s.origin) + 2 * k * (n ⬝ᵥ (o - s.origin)) + k ^ 2 := by
    rw [dp_add_self, dp_smul_self, hu, dotProduct_smul, dotProduct_comm _ n, smul_eq_mul]; ring
  have e2 : σ • n ⬝ᵥ (o - s.origin + k • n) = σ * (n ⬝ᵥ (o - s.origin) + k) := by
    rw [smul_dotProduct, dotProduct_add, dotProduct_smul, hu, smul_eq_mul, smul_eq_mul, mul_one]
  rw [e1, e2]
  generalize n ⬝ᵥ (o - s.origin) = x
  generalize (o - s.origin) ⬝ᵥ (o - s.origin) = y
  have ed : 2 * (σ * (x + k)) * (2 * (σ * (x + k))) - 4 * (σ ^ 2 * 1) * (y + 2 * k * x + k ^ 2 - s.radius * s.radius) =
      2 * x * (2 * x) - 4 * 1 * (y - s.radius * s.radius) := by
    linear_combination (4 * (x + k) ^ 2 - 4 * (y + 2 * k * x + k ^ 2 - s.radius * s.radius)) * hσ
  rw [ed]
  have hpt : ∀ t t', t' = σ * (t - k) → vadd (o + k • n) (vscale (σ • n) t') = vadd o (vscale n t) := by
    rintro t _ rfl; exact repr_point _ _ hσ
  generalize HasSqrt.sqrt (2 * x * (2 * x) - 4 * 1 * (y - s.radius * s.radius)) = w
  rcases mul_self_eq_one_iff.1 hσ with rfl | rfl
  · left
    split_ifs
    · rw [hpt ((-(2 * x) + w) / (2 * 1)) _ (by ring), hpt ((-(2 * x) - w) / (2 * 1)) _ (by ring)]
    · rw [hpt (-(2 * x) / 2 * 1) _ (by ring)]
    · rfl
  · split_ifs
    · right
      exact ⟨_, _, rfl, by rw [hpt ((-(2 * x) - w) / (2 * 1)) _ (by ring), hpt ((-(2 * x) + w) / (2 * 1)) _ (by ring)]⟩
    · left; rw [hpt (-(2 * x) / 2 * 1) _ (by ring)]
    · left; rfl

/-- **C138** (distance of lines) When the lines are exactly parallel or not nearly parallel, the absolute value depends on the lines only. -/
theorem C138_distance_lines_partial (dbg : Bool) (lo d lo' d' ro e : Vec ℝ 3) (hd : d ≠ 0) (hd' : d' ≠ 0) (he : e ≠ 0) (h : Spec.line lo d = Spec.line lo' d')
    (hp : Spec.Parallel d e ∨ Spec.AngleAbove (eps ^ 2) d e) :
    (distLineLine dbg (Line.make lo' d') (Line.make ro e)).map (|·|) = (distLineLine dbg (Line.make lo d) (Line.make ro e)).map (|·|) := by
  obtain ⟨k, σ, hσ, -, h2⟩ := same_line hd hd' h
  have hg : Spec.gram (normalize d') (normalize e) = Spec.gram (normalize d) (normalize e) := by
    rw [h2, gram_eq, gram_eq, dp_smul_self, smul_dotProduct, smul_eq_mul]
    linear_combination ((normalize d ⬝ᵥ normalize d) * (normalize e ⬝ᵥ normalize e) - (normalize d ⬝ᵥ normalize e) ^ 2) * hσ
  have hp' : Spec.Parallel d' e ∨ Spec.AngleAbove (eps ^ 2) d' e := by
    rcases hp with hp | hp
    · left
      have hl := length_pos hd'
      have hl2 := length_pos hd
      have e1 : d' = (length d' * σ * (length d)⁻¹) • d := by
        have := congrArg (fun v => length d' • v) h2
        simp only [normalize_eq, smul_smul] at this
        rw [mul_inv_cancel₀ hl.ne', one_smul] at this
        exact this.trans (by rw [mul_assoc])
      intro i j
      rw [e1]
      simp only [Pi.smul_apply, smul_eq_mul]
      linear_combination (length d' * σ * (length d)⁻¹) * hp i j
    · right
      rw [angle_iff hd' he, hg, ← angle_iff hd he]; exact hp
  obtain ⟨x, hx, hx'⟩ := C24_partial dbg lo d ro e hd he hp
  obtain ⟨y, hy, hy'⟩ := C24_partial dbg lo' d' ro e hd' he hp'
  rw [hx, hy]
  rw [h] at hx'
  exact congrArg Except.ok (hy'.unique hx')

/-! ### Planes -/

theorem plane_repr_param (p n p' n' o d : Vec ℝ 3) (hn : n ≠ 0) (hn' : n' ≠ 0) (h : Spec.plane p n = Spec.plane p' n')
    (hz : ∀ x : ℝ, Tol.isZero (-x) ε = Tol.isZero x ε) :
    calcIntersectionParameter p' (normalize n') o d ε = calcIntersectionParameter p (normalize n) o d ε := by
  obtain ⟨σ, hσ, h1, h2⟩ := same_plane hn hn' h
  simp only [calcIntersectionParameter, h1, dot_eq, vsub_eq]
  have e : (p' - o) ⬝ᵥ normalize n = (p - o) ⬝ᵥ normalize n := by
    have : p' - o = (p' - p) + (p - o) := by abel
    rw [this, add_dotProduct, h2, zero_add]
  rw [dotProduct_smul, dotProduct_smul, e]
  generalize (p - o) ⬝ᵥ normalize n = x
  generalize d ⬝ᵥ normalize n = y
  rcases hσ with rfl | rfl
  · rw [one_smul, one_smul]
  · rw [neg_one_smul, neg_one_smul, hz, neg_div_neg_eq]

theorem planeLine_param (e : Plane ℝ) (l : Line ℝ 3) :
    intersectPlaneLine e l ε = (calcIntersectionParameter e.origin e.normal l.origin l.direction ε).map fun t => vadd l.origin (vscale l.direction t) := by
  simp only [intersectPlaneLine, calcIntersectionParameter]
  split_ifs <;> rfl

/-- **C138** (planes) Neither the point nor the orientation of the normal matters. -/
theorem C138_planes (p n p' n' : Vec ℝ 3) (hn : n ≠ 0) (hn' : n' ≠ 0) (h : Spec.plane p n = Spec.plane p' n')
    (hz : ∀ x : ℝ, Tol.isZero (-x) ε = Tol.isZero x ε) (v : Vec ℝ 3) (l : Line ℝ 3) (r : Ray ℝ 3) (s : Segment ℝ 3) :
    distPlaneVec (Plane.make p' n') v = distPlaneVec (Plane.make p n) v ∧
    intersectPlaneLine (Plane.make p' n') l ε = intersectPlaneLine (Plane.make p n) l ε ∧
    intersectPlaneRay (Plane.make p' n') r ε = intersectPlaneRay (Plane.make p n) r ε ∧
    intersectPlaneSegment (Plane.make p' n') s ε = intersectPlaneSegment (Plane.make p n) s ε := by
  refine ⟨(C22_point_plane p' n' v hn').unique (by rw [← h]; exact C22_point_plane p n v hn), ?_, ?_, ?_⟩
  · rw [planeLine_param, planeLine_param]; exact congrArg _ (plane_repr_param p n p' n' _ _ hn hn' h hz)
  · simp only [intersectPlaneRay, Plane.make]
    rw [plane_repr_param p n p' n' _ _ hn hn' h hz]
  · simp only [intersectPlaneSegment, Plane.make]
    rw [plane_repr_param p n p' n' _ _ hn hn' h hz]

/-- **C138** (plane and line) -/
theorem C138_plane_line (he : 0 < ε) (o d o' d' : Vec ℝ 3) (hd : d ≠ 0) (hd' : d' ≠ 0) (h : Spec.line o d = Spec.line o' d')
    (hz : ∀ x : ℝ, Tol.isZero (-x) ε = Tol.isZero x ε) (e : Plane ℝ) :
    intersectPlaneLine e (Line.make o' d') ε = intersectPlaneLine e (Line.make o d) ε := by
  obtain ⟨k, σ, hσ, h1, h2⟩ := same_line hd hd' h
  simp only [intersectPlaneLine, Line.make, h1, h2, dot_eq, vsub_eq]
  generalize normalize d = n
  have e0 : e.origin - (o + k • n) = (e.origin - o) - k • n := by abel
  rw [e0, sub_dotProduct, smul_dotProduct, smul_dotProduct, smul_eq_mul, smul_eq_mul]
  generalize n ⬝ᵥ e.normal = x
  generalize (e.origin - o) ⬝ᵥ e.normal = y
  have hzz : Tol.isZero (σ * x) ε = Tol.isZero x ε := by
    rcases mul_self_eq_one_iff.1 hσ with rfl | rfl
    · rw [one_mul]
    · rw [neg_one_mul, hz]
  rw [hzz]
  split_ifs with h0
  · rfl
  · have hx : x ≠ 0 := TolE.ne_zero he (by simpa using h0)
    have hσ0 : σ ≠ 0 := by rintro rfl; simp at hσ
    have : (y - k * x) / (σ * x) = σ * (y / x - k) := by
      rw [div_eq_iff (mul_ne_zero hσ0 hx)]
      have : σ * (y / x - k) * (σ * x) = (σ * σ) * (y / x * x - k * x) := by ring
      rw [this, hσ, div_mul_cancel₀ _ hx, one_mul]
    rw [this, repr_point _ _ hσ]

/-- **C138** (plane and segment) The direction of the segment does not matter unless the plane passes within the tolerance of one of its ends. Missing: those
planes, see `C138_plane_segment_counterexample`. -/
theorem C138_plane_segment_partial (he : 0 < ε) (hz : ∀ x : ℝ, Tol.isZero (-x) ε = Tol.isZero x ε) (po n : Vec ℝ 3) (hn : n ≠ 0) (a : Segment ℝ 3)
    (hp : ∀ t, Spec.pointAt a.source (a.target - a.source) t ∈ Spec.plane po n → ε < |t| ∧ ε < |1 - t|) :
    intersectPlaneSegment (Plane.make po n) a.flip ε = intersectPlaneSegment (Plane.make po n) a ε := by
  obtain ⟨s, t⟩ := a
  have hq := plane_normalize po hn
  rw [← hq] at hp
  have e1 : Segment.flip ⟨s, t⟩ = ⟨t, s⟩ := rfl
  simp only [intersectPlaneSegment, e1, calcIntersectionParameter, Plane.make, dot_eq, vsub_eq]
  have e2 : (s - t) ⬝ᵥ normalize n = -((t - s) ⬝ᵥ normalize n) := by rw [← neg_sub, neg_dotProduct]
  rw [e2, hz]
  rcases h0 : Tol.isZero ((t - s) ⬝ᵥ normalize n) ε with _ | _
  · have hne := TolE.ne_zero he h0
    simp only [Bool.false_eq_true, if_false]
    have e3 : (po - t) ⬝ᵥ normalize n / -((t - s) ⬝ᵥ normalize n) = 1 - (po - s) ⬝ᵥ normalize n / (t - s) ⬝ᵥ normalize n := by
      have : po - t = (po - s) - (t - s) := by abel
      rw [this, sub_dotProduct (po - s)]
      field_simp
      ring
    obtain ⟨h1, h2⟩ := hp _ ((plane_param hne _).2 rfl)
    rw [e3]
    generalize (po - s) ⬝ᵥ normalize n / (t - s) ⬝ᵥ normalize n = x at *
    have e4 : vadd t (vscale (s - t) (1 - x)) = vadd s (vscale (t - s) x) := by
      funext i; simp only [vadd, vscale, Pi.sub_apply]; ring
    rw [e4]
    congr 1
    rw [TolE.greater_eq he, TolE.greater_eq he, TolE.lessEq_eq he, TolE.lessEq_eq he]
    rcases lt_abs.1 h1 with h1 | h1 <;> rcases lt_abs.1 h2 with h2 | h2
    · rw [TolE.less_true (a := 0) (b := 1 - x) he (by linarith), TolE.less_true (a := 0) (b := x) he (by linarith),
        TolE.less_false (a := 1) (b := 1 - x) he (by linarith), TolE.less_false (a := 1) (b := x) he (by linarith)]
    · rw [TolE.less_false (a := 0) (b := 1 - x) he (by linarith), TolE.less_true (a := 1) (b := x) he (by linarith)]; simp
    · rw [TolE.less_true (a := 1) (b := 1 - x) he (by linarith), TolE.less_false (a := 0) (b := x) he (by linarith)]; simp
    · linarith
  · simp

/-- **C138** is false for planes and segments: with its source in the plane nothing is found, given from the other end the same segment meets the plane. -/
theorem C138_plane_segment_counterexample (he : 0 < ε) (h1 : ε < 1) :
    ∃ e : Plane ℝ, ∃ a : Segment ℝ 3, intersectPlaneSegment e a ε = none ∧ intersectPlaneSegment e a.flip ε = some 0 := by
  have u : (![1, 0, 0] : Vec ℝ 3) ⬝ᵥ ![1, 0, 0] = 1 := by simp [dotProduct, Fin.sum_univ_three]
  have hc : ∀ o d : Vec ℝ 3, |d ⬝ᵥ ![1, 0, 0]| = 1 → calcIntersectionParameter 0 ![1, 0, 0] o d ε = some ((0 - o) ⬝ᵥ ![1, 0, 0] / d ⬝ᵥ ![1, 0, 0]) := by
    intro o d h
    simp only [calcIntersectionParameter, dot_eq, vsub_eq]
    rw [if_neg (by rw [TolE.zero_false he (by rw [h]; exact h1)]; simp)]
  refine ⟨⟨0, ![1, 0, 0]⟩, ⟨0, ![1, 0, 0]⟩, ?_, ?_⟩
  · simp only [intersectPlaneSegment, vsub_eq, sub_zero]
    rw [hc _ _ (by rw [u, abs_one])]
    simp only [zero_dotProduct, sub_zero, zero_div]
    rw [TolE.greater_eq he, TolE.less_false he (by linarith)]; simp
  · simp only [intersectPlaneSegment, Segment.flip, vsub_eq, zero_sub]
    rw [hc _ _ (by rw [neg_dotProduct, u, abs_neg, abs_one])]
    simp only [neg_dotProduct, u, zero_sub]
    rw [show (-1 : ℝ) / -1 = 1 by norm_num, TolE.greater_eq he, TolE.less_true he (by linarith), TolE.lessEq_eq he, TolE.less_false he (by linarith)]
    simp only [Bool.not_false, Bool.and_self, if_true, Option.some.injEq]
    funext i; fin_cases i <;> simp [vadd, vscale]

/-! ### Spheres and segments -/

/-- **C138** (sphere and segment) The direction of the segment only changes the order of the two points unless the segment's line nearly touches the sphere.
Missing: lines nearly touching it, see `C138_sphere_segment_counterexample`. -/
theorem C138_sphere_segment_partial (he : 0 < ε) (hs : ∀ t : ℝ, Tol.isLess (1 - t) 0 ε = Tol.isGreater t 1 ε) (c a b : Vec ℝ 3) (r h : ℝ) (hab : a ≠ b)
    (hh : Spec.IsDistance {c} (Spec.line a (b - a)) h) (hd : ε < |4 * Spec.dist a b ^ 2 * (r ^ 2 - h ^ 2)|) :
    (intersectSphereSegment ⟨c, r⟩ (Segment.flip ⟨a, b⟩) ε).first = (intersectSphereSegment ⟨c, r⟩ ⟨a, b⟩ ε).second ∧
    (intersectSphereSegment ⟨c, r⟩ (Segment.flip ⟨a, b⟩) ε).second = (intersectSphereSegment ⟨c, r⟩ ⟨a, b⟩ ε).first := by
  have hba : b - a ≠ 0 := fun e => hab (sub_eq_zero.1 e).symm
  have hD := discr_eq hba r hh
  have hlen : (b - a) ⬝ᵥ (b - a) = Spec.dist a b ^ 2 := by
    rw [dist_comm', spec_dist_eq, Real.sq_sqrt (dp_self_nonneg _)]
  rw [hlen] at hD
  rw [← hD] at hd
  have e1 : Segment.flip ⟨a, b⟩ = (⟨b, a⟩ : Segment ℝ 3) := rfl
  have en : a - b = -(b - a) := by abel
  have eb : b - c = (a - c) + (b - a) := by abel
  have e2 : (a - b) ⬝ᵥ (a - b) = (b - a) ⬝ᵥ (b - a) := by rw [en, neg_dotProduct, dotProduct_neg, neg_neg]
  have e3 : (a - b) ⬝ᵥ (b - c) = -((b - a) ⬝ᵥ (a - c)) - (b - a) ⬝ᵥ (b - a) := by
    rw [en, eb, neg_dotProduct, dotProduct_add]; ring
  have e4 : (b - c) ⬝ᵥ (b - c) = (a - c) ⬝ᵥ (a - c) + 2 * ((b - a) ⬝ᵥ (a - c)) + (b - a) ⬝ᵥ (b - a) := by
    rw [eb, dp_add_self, dotProduct_comm (a - c) (b - a)]
  have ed : discr c b (a - b) r = discr c a (b - a) r := by
    unfold discr; rw [e2, e3, e4]; ring
  have hpos := dp_self_pos hba
  rw [e1, sphereSegment_eval _ _ _ _ _ he, sphereSegment_eval _ _ _ _ _ he]
  simp only [ed, e2, e3]
  rcases lt_abs.1 hd with hd | hd
  · rw [TolE.less_true (a := 0) he (by linarith)]
    simp only [if_true]
    generalize Real.sqrt (discr c a (b - a) r) = w
    generalize (b - a) ⬝ᵥ (a - c) = x
    generalize (b - a) ⬝ᵥ (b - a) = y at *
    have f1 : (-(2 * (-x - y)) + w) / (2 * y) = 1 - (-(2 * x) - w) / (2 * y) := by field_simp; ring
    have f2 : (-(2 * (-x - y)) - w) / (2 * y) = 1 - (-(2 * x) + w) / (2 * y) := by field_simp; ring
    have fp : ∀ t, Spec.pointAt b (a - b) (1 - t) = Spec.pointAt a (b - a) t := by
      intro t; funext i; simp only [Spec.pointAt, Pi.sub_apply]; ring
    have g1 : ∀ t : ℝ, (Tol.isLess (1 - t) 0 ε || Tol.isLess 1 (1 - t) ε) = (Tol.isLess t 0 ε || Tol.isLess 1 t ε) := by
      intro t
      have h' := hs (1 - t)
      rw [sub_sub_cancel, TolE.greater_eq he] at h'
      rw [hs, TolE.greater_eq he, ← h', Bool.or_comm]
    rw [f1, f2, fp, fp, g1, g1]
    exact ⟨rfl, rfl⟩
  · rw [TolE.less_false (a := 0) (b := discr c a (b - a) r) he (by linarith), TolE.less_true (a := discr c a (b - a) r) (b := 0) he (by linarith)]
    simp

/-- **C138** is false for spheres and segments: of a segment that touches the sphere one point (a wrong one) is found, given from the other end none. -/
theorem C138_sphere_segment_counterexample (he : 0 < ε) (h1 : ε < 10) :
    ∃ s : Sphere ℝ, ∃ a : Segment ℝ 3, (intersectSphereSegment s a ε).first.isSome = true ∧ intersectSphereSegment s a.flip ε = ⟨none, none⟩ := by
  have hev : ∀ k l : ℝ, intersectSphereSegment ⟨0, 1⟩ ⟨![k, 1, 0], ![l, 1, 0]⟩ ε =
      ⟨if Tol.isLess (-(2 * ((l - k) * k)) / 2 * ((l - k) * (l - k))) 0 ε || Tol.isLess 1 (-(2 * ((l - k) * k)) / 2 * ((l - k) * (l - k))) ε then none
        else some (Spec.pointAt ![k, 1, 0] (![l, 1, 0] - ![k, 1, 0]) (-(2 * ((l - k) * k)) / 2 * ((l - k) * (l - k)))), none⟩ := by
    intro k l
    have hD : discr 0 ![k, 1, 0] (![l, 1, 0] - ![k, 1, 0]) 1 = 0 := by
      simp [discr, dotProduct, Fin.sum_univ_three]; ring
    rw [sphereSegment_eval _ _ _ _ _ he]
    simp only
    rw [hD, if_neg (by rw [TolE.less_false he (by linarith)]; simp), if_neg (by rw [TolE.less_false he (by linarith)]; simp)]
    have i1 : (![l, 1, 0] - ![k, 1, 0]) ⬝ᵥ (![k, 1, 0] - (0 : Vec ℝ 3)) = (l - k) * k := by simp [dotProduct, Fin.sum_univ_three]
    have i2 : ((![l, 1, 0] : Vec ℝ 3) - ![k, 1, 0]) ⬝ᵥ (![l, 1, 0] - ![k, 1, 0]) = (l - k) * (l - k) := by simp [dotProduct, Fin.sum_univ_three]
    rw [i1, i2]
  refine ⟨⟨0, 1⟩, ⟨![-1 / 16, 1, 0], ![31 / 16, 1, 0]⟩, ?_, ?_⟩
  · rw [hev]
    norm_num
    rw [TolE.less_false (b := 0) he (by linarith), TolE.less_false (a := 1) he (by linarith)]; simp
  · rw [Segment.flip]
    dsimp only
    rw [hev]
    norm_num
    rw [TolE.less_true (a := 1) he (by linarith)]; simp

/-! ### What goes wrong otherwise -/

/-- **C138** is false for the distance of lines: the result changes its sign when one of the lines is given the opposite direction. -/
theorem C138_distance_lines_counterexample (dbg : Bool) (hs : (eps : ℝ) < 1) (h : ℝ) :
    ∃ lo d d' ro e : Vec ℝ 3, d ≠ 0 ∧ d' ≠ 0 ∧ e ≠ 0 ∧ Spec.line lo d = Spec.line lo d' ∧
      distLineLine dbg (Line.make lo d) (Line.make ro e) = .ok h ∧ distLineLine dbg (Line.make lo d') (Line.make ro e) = .ok (-h) := by
  have hd : (![1, 0, 0] : Vec ℝ 3) ≠ 0 := by intro h; have := congrFun h 0; simp at this
  have hd' : (![-1, 0, 0] : Vec ℝ 3) ≠ 0 := by intro h; have := congrFun h 0; simp at this
  have he : (![0, 1, 0] : Vec ℝ 3) ≠ 0 := by intro h; have := congrFun h 1; simp at this
  have nd : normalize (![1, 0, 0] : Vec ℝ 3) = ![1, 0, 0] := normalize_of_unit (by simp [dotProduct, Fin.sum_univ_three])
  have nd' : normalize (![-1, 0, 0] : Vec ℝ 3) = ![-1, 0, 0] := normalize_of_unit (by simp [dotProduct, Fin.sum_univ_three])
  have ne : normalize (![0, 1, 0] : Vec ℝ 3) = ![0, 1, 0] := normalize_of_unit (by simp [dotProduct, Fin.sum_univ_three])
  have hc : cross (![1, 0, 0] : Vec ℝ 3) ![0, 1, 0] = ![0, 0, 1] := by funext i; fin_cases i <;> simp [cross]
  have hc' : cross (![-1, 0, 0] : Vec ℝ 3) ![0, 1, 0] = ![0, 0, -1] := by funext i; fin_cases i <;> simp [cross]
  have hl : length (![0, 0, 1] : Vec ℝ 3) = 1 := by rw [length_eq]; simp [dotProduct, Fin.sum_univ_three]
  have hl' : length (![0, 0, -1] : Vec ℝ 3) = 1 := by rw [length_eq]; simp [dotProduct, Fin.sum_univ_three]
  refine ⟨![0, 0, h], ![1, 0, 0], ![-1, 0, 0], 0, ![0, 1, 0], hd, hd', he, ?_, ?_, ?_⟩
  · ext x
    constructor <;> rintro ⟨t, rfl⟩ <;> refine ⟨-t, ?_⟩ <;> funext i <;> fin_cases i <;> simp [Spec.pointAt]
  · rw [distLineLine_ok dbg _ _ _ _ hd he, nd, ne, hc, hl, isZero_false (by simpa using hs), dot_eq]
    simp [dotProduct, Fin.sum_univ_three, vsub]
  · rw [distLineLine_ok dbg _ _ _ _ hd' he, nd', ne, hc', hl', isZero_false (by simpa using hs), dot_eq]
    simp [dotProduct, Fin.sum_univ_three, vsub]

/-- **C138** is false for the distance of nearly parallel lines: given by another point of the first line it is any `l` instead of 0. -/
theorem C138_distance_origin_counterexample (dbg : Bool) (l : ℝ) (hl : 0 ≤ l) :
    ∃ lo lo' d ro e : Vec ℝ 3, d ≠ 0 ∧ e ≠ 0 ∧ Spec.line lo d = Spec.line lo' d ∧
      distLineLine dbg (Line.make lo d) (Line.make ro e) = .ok l ∧ distLineLine dbg (Line.make lo' d) (Line.make ro e) = .ok 0 := by
  have hep := eps_pos (K := ℝ)
  have he : (![1, 0, 0] : Vec ℝ 3) ≠ 0 := by intro h; have := congrFun h 0; simp at this
  have hd : (![1, eps, 0] : Vec ℝ 3) ≠ 0 := by intro h; have := congrFun h 0; simp at this
  refine ⟨_, _, _, _, _, hd, he, ?_, nearly_parallel_dist dbg l hl, nearly_parallel_dist dbg 0 le_rfl⟩
  ext x
  constructor
  · rintro ⟨t, rfl⟩
    refine ⟨t + l / eps, ?_⟩
    funext i; fin_cases i <;> simp [Spec.pointAt]
    · ring
    · field_simp; ring
  · rintro ⟨t, rfl⟩
    refine ⟨t - l / eps, ?_⟩
    funext i; fin_cases i <;> simp [Spec.pointAt]
    field_simp
    ring

/-- **C138** is false for the distance of a point and a segment: from one end it is 1, from the other `l - 1`. -/
theorem C138_distance_segment_counterexample (l : ℝ) (hl : 2 ≤ l) :
    ∃ a : Segment ℝ 2, ∃ v, distSegmentVec a v = l - 1 ∧ distSegmentVec a.flip v = 1 := by
  have l1 : length ((![l, 0] : Vec ℝ 2) - 0) = l := by
    rw [length_eq, sub_zero]; simp [dotProduct, Fin.sum_univ_two]; exact Real.sqrt_mul_self (by linarith)
  have l2 : length ((0 : Vec ℝ 2) - ![l, 0]) = l := by
    rw [length_eq, zero_sub]; simp [dotProduct, Fin.sum_univ_two]; exact Real.sqrt_mul_self (by linarith)
  have hl0 : l ≠ 0 := by linarith
  refine ⟨⟨0, ![l, 0]⟩, ![1, 0], ?_, ?_⟩
  · rw [distSegmentVec_eq, l1]
    have : ((![1, 0] : Vec ℝ 2) - 0) ⬝ᵥ (![l, 0] - 0) = l := by simp [dotProduct, Fin.sum_univ_two]
    rw [this, div_self hl0, max_eq_left zero_le_one, min_self, spec_dist_eq, Real.sqrt_eq_iff_mul_self_eq (dp_self_nonneg _) (by linarith)]
    simp [dotProduct, Fin.sum_univ_two]; ring
  · rw [Segment.flip]; dsimp only
    rw [distSegmentVec_eq, l2]
    have : ((![1, 0] : Vec ℝ 2) - ![l, 0]) ⬝ᵥ (0 - ![l, 0]) = (l - 1) * l := by simp [dotProduct, Fin.sum_univ_two]; ring
    rw [this, mul_div_cancel_right₀ _ hl0, max_eq_left (by linarith), min_eq_right (by linarith), spec_dist_eq,
      Real.sqrt_eq_iff_mul_self_eq (dp_self_nonneg _) zero_le_one]
    simp [dotProduct, Fin.sum_univ_two]

/-- **C138** (point and segment, distance) For segments of length 1 the direction does not matter. Missing: all others, see
`C138_distance_segment_counterexample`. -/
theorem C138_distance_segment_partial {D : ℕ} (a : Segment ℝ D) (v : Vec ℝ D) (h : Spec.dist a.source a.target = 1) :
    distSegmentVec a.flip v = distSegmentVec a v := by
  obtain ⟨s, t⟩ := a
  have hst : s ≠ t := by
    rintro rfl
    rw [spec_dist_eq, sub_self] at h; simp at h
  have h1 := C26_partial s t v hst (.inl h)
  have h2 := C26_partial t s v hst.symm (.inl (by rw [dist_comm']; exact h))
  refine h2.unique ?_
  have : Spec.segment t s = Spec.segment s t := by
    ext x
    constructor <;> rintro ⟨k, h0, h1, rfl⟩ <;> refine ⟨1 - k, by linarith, by linarith, ?_⟩ <;> funext i <;> ring
  rw [this]; exact h1

/-- **C138** is false for the distance of a segment and a parallel ray: from one end it is the distance `h` of the parallel lines, from the other more. -/
theorem C138_distance_segment_ray_counterexample (hs : (eps : ℝ) < 1 / 2) (h : ℝ) (hh : eps < h) :
    ∃ a : Segment ℝ 3, ∃ r : Ray ℝ 3, r.direction ⬝ᵥ r.direction = 1 ∧ distSegmentRay a r = .ok (Real.sqrt (1 / 4 + h ^ 2)) ∧ distSegmentRay a.flip r = .ok h := by
  have hep := eps_pos (K := ℝ)
  have l4 : ∀ x : ℝ, |x| = 4 → length (![x, 0, 0] : Vec ℝ 3) = 4 := by
    intro x hx
    rw [length_eq]; simp only [dotProduct, Fin.sum_univ_three]
    simp [Real.sqrt_mul_self_eq_abs, hx]
  have hnone : ∀ (o o' : Vec ℝ 3) (x : ℝ), closestPointOnLineParameters o ![x, 0, 0] o' ![1, 0, 0] = none := by
    intro o o' x
    refine (C19_none hep _ _ _ _).2.1 ?_
    have : Spec.gram (![x, 0, 0] : Vec ℝ 3) ![1, 0, 0] = 0 := by simp [gram_eq, dotProduct, Fin.sum_univ_three]
    rw [this]; exact hep
  have hline : ∀ (k x : ℝ), |x| = 4 → distVecLine ![7 / 2, h, 0] (Line.make ![k, 0, 0] ![x, 0, 0]) = h := by
    intro k x hx
    have hx0 : x ≠ 0 := by rintro rfl; norm_num at hx
    have hne : (![x, 0, 0] : Vec ℝ 3) ≠ 0 := by intro e; exact hx0 (by simpa using congrFun e 0)
    refine (C20_point_line _ _ _ hne).unique ⟨⟨_, rfl, Spec.pointAt ![k, 0, 0] ![x, 0, 0] ((7 / 2 - k) / x), ⟨_, rfl⟩, ?_⟩, ?_⟩
    · symm
      rw [spec_dist_eq, Real.sqrt_eq_iff_mul_self_eq (dp_self_nonneg _) (by linarith)]
      simp [dotProduct, Fin.sum_univ_three, Spec.pointAt, hx0]
    · rintro _ ⟨_, rfl, _, ⟨t, rfl⟩, rfl⟩
      rw [spec_dist_eq]
      refine Real.le_sqrt_of_sq_le ?_
      simp [dotProduct, Fin.sum_univ_three, Spec.pointAt]
      nlinarith [mul_self_nonneg (7 / 2 - (k + t * x))]
  have hnz : isEq h 0 = false := by
    rw [isEq_eq, isLess_true (a := 0) (by linarith)]; simp
  refine ⟨⟨![0, 0, 0], ![4, 0, 0]⟩, ⟨![7 / 2, h, 0], ![1, 0, 0]⟩, by simp [dotProduct, Fin.sum_univ_three], ?_, ?_⟩
  · have hd : vsub (![4, 0, 0] : Vec ℝ 3) ![0, 0, 0] = ![4, 0, 0] := by funext i; fin_cases i <;> simp [vsub]
    unfold distSegmentRay
    simp only [hd, hnone, l4 4 (by norm_num), hline 0 4 (by norm_num), hnz, dot_eq, isGreaterEq_eq, isLessEq_eq, isGreater_eq]
    have hp : (vsub (![7 / 2, h, 0] : Vec ℝ 3) ![0, 0, 0]) ⬝ᵥ ![4, 0, 0] / 4 = 7 / 2 := by simp [dotProduct, Fin.sum_univ_three, vsub]
    have hq : (![1, 0, 0] : Vec ℝ 3) ⬝ᵥ ![4, 0, 0] = 4 := by simp [dotProduct, Fin.sum_univ_three]
    rw [hp, hq, isLess_true (a := 1) (b := 7 / 2) (by linarith), not_isLess (a := 7 / 2) (b := 0) (by linarith)]
    norm_num
    rw [length_eq]
    congr 1
    simp [dotProduct, Fin.sum_univ_three, vsub]; ring
  · have hd : vsub (![0, 0, 0] : Vec ℝ 3) ![4, 0, 0] = ![-4, 0, 0] := by funext i; fin_cases i <;> simp [vsub]
    unfold distSegmentRay Segment.flip
    simp only [hd, hnone, l4 (-4) (by norm_num), hline 4 (-4) (by norm_num), hnz, dot_eq, isGreaterEq_eq, isLessEq_eq, isGreater_eq]
    have hp : (vsub (![7 / 2, h, 0] : Vec ℝ 3) ![4, 0, 0]) ⬝ᵥ ![-4, 0, 0] / 4 = 1 / 2 := by simp [dotProduct, Fin.sum_univ_three, vsub]; norm_num
    rw [hp, not_isLess (a := 1) (b := 1 / 2) (by linarith), not_isLess (a := 1 / 2) (b := 0) (by linarith)]
    simp
end

section Examples
attribute [local instance] realTol realTol_lawful

theorem ex_tol_zero (x : ℝ) : Tol.isZero (-x) (1 / 1000 : ℝ) = Tol.isZero x (1 / 1000) := by
  show (!decide (-x + 1 / 1000 < 0) && !decide (0 + 1 / 1000 < -x)) = (!decide (x + 1 / 1000 < 0) && !decide (0 + 1 / 1000 < x))
  rw [Bool.and_comm]
  congr 3
  · exact propext ⟨fun h => by linarith, fun h => by linarith⟩
  · exact propext ⟨fun h => by linarith, fun h => by linarith⟩
theorem ex_tol_flip (t : ℝ) : Tol.isLess (1 - t) 0 (1 / 1000 : ℝ) = Tol.isGreater t 1 (1 / 1000) := by
  show decide (1 - t + 1 / 1000 < 0) = decide (1 + 1 / 1000 < t)
  congr 1
  exact propext ⟨fun h => by linarith, fun h => by linarith⟩
/-- Two crossing segments of the plane; the flipped one is another structure. -/
example : (Segment.flip ⟨![0, 0], ![2, 2]⟩ : Segment ℝ 2) ≠ ⟨![0, 0], ![2, 2]⟩ := by
  intro h; have := congrFun (congrArg Segment.source h) 0; simp [Segment.flip] at this
example := C138_segments2 (ε := 1 / 1000) (by norm_num) ex_tol_zero ex_tol_flip true ⟨![0, 0], ![2, 2]⟩ ⟨![0, 2], ![2, 0]⟩
example := C138_segments3 (ε := 1 / 1000) (by norm_num) ex_tol_flip ⟨![0, 0, 0], ![2, 2, 0]⟩ ⟨![0, 2, 0], ![2, 0, 0]⟩
example := C138_segment_ray (ε := 1 / 1000) (by norm_num) ex_tol_flip ⟨![0, 0, 0], ![2, 2, 0]⟩ ⟨![0, 2, 0], ![3 / 5, -4 / 5, 0]⟩
example : distSegmentRay (Segment.flip ⟨![0, 0, 0], ![2, 2, 0]⟩ : Segment ℝ 3) ⟨![0, 2, 3], ![3 / 5, -4 / 5, 0]⟩ = distSegmentRay ⟨![0, 0, 0], ![2, 2, 0]⟩ ⟨![0, 2, 3], ![3 / 5, -4 / 5, 0]⟩ := by
  refine C138_distance_segment_ray _ _ (isZero_false ?_)
  have : Spec.gram ((![2, 2, 0] : Vec ℝ 3) - ![0, 0, 0]) ![3 / 5, -4 / 5, 0] = 196 / 25 := by simp [gram_eq, dotProduct, Fin.sum_univ_three]; norm_num
  rw [this]
  show (1 / 1000 : ℝ) < |196 / 25|
  norm_num
/-- A line of the plane through (0,0) and (3,4), and through (6,8) in the opposite direction. -/
theorem ex_same_line2 : Spec.line (![0, 0] : Vec ℝ 2) ![3, 4] = Spec.line ![6, 8] ![-3, -4] := by
  ext x
  constructor <;> rintro ⟨t, rfl⟩ <;> refine ⟨2 - t, ?_⟩ <;> funext i <;> fin_cases i <;> simp [Spec.pointAt] <;> ring
theorem ex_same_line3 : Spec.line (![0, 0, 1] : Vec ℝ 3) ![3, 4, 0] = Spec.line ![6, 8, 1] ![-3, -4, 0] := by
  ext x
  constructor <;> rintro ⟨t, rfl⟩ <;> refine ⟨2 - t, ?_⟩ <;> funext i <;> fin_cases i <;> simp [Spec.pointAt] <;> ring
theorem ex_34_ne : (![3, 4, 0] : Vec ℝ 3) ≠ 0 := by intro h; have := congrFun h 0; simp at this
theorem ex_34n_ne : (![-3, -4, 0] : Vec ℝ 3) ≠ 0 := by intro h; have := congrFun h 0; simp at this
example := C138_lines2 (ε := 1 / 1000) (by norm_num) _ _ _ _ (by intro h; have := congrFun h 0; simp at this) (by intro h; have := congrFun h 0; simp at this)
  ex_same_line2 ⟨![0, 2], ![1, 0]⟩
example := C138_lines3 (ε := 1 / 1000) _ _ _ _ ex_34_ne ex_34n_ne ex_same_line3 ⟨![0, 2, 1], ![1, 0, 0]⟩
example := C138_line_distances _ _ _ _ ex_34_ne ex_34n_ne ex_same_line3 ![1, 1, 1] ⟨![0, 2, 1], ![1, 0, 0]⟩
example := C138_sphere_line (ε := 1 / 1000) _ _ _ _ ex_34_ne ex_34n_ne ex_same_line3 ⟨![0, 0, 0], 2⟩
example := C138_plane_line (ε := 1 / 1000) (by norm_num) _ _ _ _ ex_34_ne ex_34n_ne ex_same_line3 ex_tol_zero ⟨![0, 2, 1], ![1, 0, 0]⟩
example := C138_distance_lines_partial true ![0, 0, 1] ![3, 4, 0] ![6, 8, 1] ![-3, -4, 0] ![0, 0, 5] ![1, 0, 0] ex_34_ne ex_34n_ne
  (by intro h; have := congrFun h 0; simp at this) ex_same_line3 (.inr (by
    show Spec.AngleAbove ((1 / 1000 : ℝ) ^ 2) _ _
    unfold Spec.AngleAbove Spec.gram; simp [Fin.sum_univ_three]; norm_num))
/-- The plane z = 1 through (0,0,1) with normal (0,0,2), and through (5,6,1) with normal (0,0,-3). -/
theorem ex_same_plane : Spec.plane (![0, 0, 1] : Vec ℝ 3) ![0, 0, 2] = Spec.plane ![5, 6, 1] ![0, 0, -3] := by
  ext x
  simp [Spec.plane, Fin.sum_univ_three]
example := C138_planes (ε := 1 / 1000) _ _ _ _ (by intro h; have := congrFun h 2; simp at this) (by intro h; have := congrFun h 2; simp at this)
  ex_same_plane ex_tol_zero ![1, 2, 3] ⟨![0, 0, 0], ![0, 3 / 5, 4 / 5]⟩ ⟨![0, 0, 0], ![0, 3 / 5, 4 / 5]⟩ ⟨![0, 0, 0], ![0, 3, 4]⟩
example := C138_plane_segment_partial (ε := 1 / 1000) (by norm_num) ex_tol_zero ![0, 0, 1] ![0, 0, 2] (by intro h; have := congrFun h 2; simp at this)
  ⟨![0, 0, 0], ![0, 3, 4]⟩ (by
    intro t ht
    have : t = 1 / 4 := by
      simp [Spec.plane, Spec.pointAt, Fin.sum_univ_three] at ht
      linarith
    subst this; norm_num [abs_of_pos])
example := C138_plane_segment_counterexample (ε := 1 / 1000) (by norm_num) (by norm_num)
/-- A line at distance 3 from the centre of a sphere of radius 5. -/
example := C138_sphere_segment_partial (ε := 1 / 1000) (by norm_num) ex_tol_flip 0 ![0, 3, 0] ![1, 3, 0] 5 3 (by intro h; have := congrFun h 0; simp at this)
  (by have := ex_line_dist; convert this using 2; funext i; fin_cases i <;> simp)
  (by rw [spec_dist_eq]; simp [dotProduct, Fin.sum_univ_three]; norm_num)
example := C138_sphere_segment_counterexample (ε := 1 / 1000) (by norm_num) (by norm_num)
example := C138_distance_lines_counterexample true (by show (1 / 1000 : ℝ) < 1; norm_num) 7
example := C138_distance_origin_counterexample true 7 (by norm_num)
example := C138_distance_segment_counterexample 100 (by norm_num)
example := C138_distance_segment_partial (⟨![0, 0], ![3 / 5, 4 / 5]⟩ : Segment ℝ 2) ![5, 7] (by
  rw [spec_dist_eq, Real.sqrt_eq_one]; simp [dotProduct, Fin.sum_univ_two]; norm_num)
example := C138_distance_segment_ray_counterexample (by show (1 / 1000 : ℝ) < 1 / 2; norm_num) 1 (by show (1 / 1000 : ℝ) < 1; norm_num)
end Examples
end Verif
