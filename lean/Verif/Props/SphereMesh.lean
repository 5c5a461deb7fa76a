import Verif.Proofs.Sphere
import Verif.Props.Cylinder
import Verif.Props.Transform

set_option linter.unusedSectionVars false

/-
C58 and the sphere part of C60.
-/
namespace Verif
open Spec Matrix Real

/-- The polar angle of ring `i`. -/
noncomputable def polar (p i : Nat) : ℝ := ((i + 1 : ℕ) : ℝ) * (π / p)

/-- The points of a sphere around the origin. -/
noncomputable def sphPt (r : ℝ) (p n : Nat) : SphV → Vec ℝ 3
  | .top => vec3 0 0 r
  | .bot => vec3 0 0 (-r)
  | .g i j => vec3 (r * sin (polar p i) * cos (azimuth n 1 j)) (r * sin (polar p i) * sin (azimuth n 1 j)) (r * cos (polar p i))

/-- The vertices in the order of the code. -/
def sphVerts (p n : Nat) : List SphV := ((List.range (p - 1)).flatMap fun i => (List.range n).map (.g i)) ++ [.top, .bot]

theorem sphVerts_ok {p n : Nat} {v : SphV} (h : v ∈ sphVerts p n) : SphOk p n v := by
  cases v with
  | top => trivial
  | bot => trivial
  | g i j => simpa [sphVerts, SphOk] using h

theorem sphVerts_nodup (p n : Nat) : (sphVerts p n).Nodup := by
  unfold sphVerts
  rw [List.nodup_append', List.nodup_flatMap]
  refine ⟨⟨fun i _ => List.Nodup.map (fun a b h => by simpa using h) List.nodup_range,
    List.Pairwise.imp ?_ List.nodup_range⟩, by simp, ?_⟩
  · intro i k hik v h1 h2
    obtain ⟨j, _, rfl⟩ := List.mem_map.1 h1
    obtain ⟨l, _, e⟩ := List.mem_map.1 h2
    cases e
    exact hik rfl
  · intro v h1 h2
    obtain ⟨i, _, h1⟩ := List.mem_flatMap.1 h1
    obtain ⟨j, _, rfl⟩ := List.mem_map.1 h1
    simp at h2

theorem sphVerts_length (p n : Nat) : (sphVerts p n).length = (p - 1) * n + 2 := by
  simp [sphVerts, List.length_flatMap]

theorem grid_getElem? {α : Type} (f : ℕ → ℕ → α) {q n i j : ℕ} (hi : i < q) (hj : j < n) :
    ((List.range q).flatMap fun i => (List.range n).map (f i))[i * n + j]? = some (f i j) := by
  induction q with
  | zero => omega
  | succ q ih =>
    have hl : ((List.range q).flatMap fun i => (List.range n).map (f i)).length = q * n := by simp [List.length_flatMap]
    rw [List.range_succ, List.flatMap_append]
    by_cases h : i < q
    · have : i * n + j < q * n := by
        have : (i + 1) * n ≤ q * n := Nat.mul_le_mul_right n h
        rw [Nat.succ_mul] at this; omega
      rw [List.getElem?_append_left (by rw [hl]; exact this)]
      exact ih h
    · obtain rfl : i = q := by omega
      rw [List.getElem?_append_right (by rw [hl]; omega), hl, Nat.add_sub_cancel_left]
      simp [hj]

theorem sphVerts_getElem? {p n : ℕ} {v : SphV} (hv : SphOk p n v) : (sphVerts p n)[sphNum p n v]? = some v := by
  have hl : ((List.range (p - 1)).flatMap fun i => (List.range n).map (SphV.g i)).length = (p - 1) * n := by
    simp [List.length_flatMap]
  unfold sphVerts
  cases v with
  | top => rw [List.getElem?_append_right (by simp [sphNum, hl])]; simp [sphNum, hl]
  | bot => rw [List.getElem?_append_right (by simp [sphNum, hl])]; simp [sphNum, hl]
  | g i j =>
    rw [List.getElem?_append_left (by rw [hl]; exact grid_lt hv.1 hv.2)]
    exact grid_getElem? SphV.g hv.1 hv.2

theorem polar_mem {p i : Nat} (h : i < p - 1) : 0 < polar p i ∧ polar p i < π := by
  have hp : (0 : ℝ) < p := by exact_mod_cast (by omega : 0 < p)
  have hpi := Real.pi_pos
  unfold polar
  constructor
  · positivity
  · have : ((i + 1 : ℕ) : ℝ) < p := by exact_mod_cast (by omega : i + 1 < p)
    calc ((i + 1 : ℕ) : ℝ) * (π / p) < p * (π / p) := by
          apply mul_lt_mul_of_pos_right this; positivity
      _ = π := by field_simp

theorem polar_inj {p i k : Nat} (hi : i < p - 1) (h : polar p i = polar p k) : i = k := by
  have hp : (0 : ℝ) < p := by exact_mod_cast (by omega : 0 < p)
  have hpi := Real.pi_pos
  unfold polar at h
  have h := mul_right_cancel₀ (by positivity) h
  have h : i + 1 = k + 1 := by exact_mod_cast h
  omega

theorem sphPt_inj {r : ℝ} (hr : r ≠ 0) {p n : Nat} {u v : SphV} (hu : SphOk p n u) (hv : SphOk p n v)
    (h : sphPt r p n u = sphPt r p n v) : u = v := by
  have hz := congrFun h 2
  have hcos : ∀ i, i < p - 1 → cos (polar p i) ≠ 1 ∧ cos (polar p i) ≠ -1 := by
    intro i hi
    obtain ⟨h0, h1⟩ := polar_mem hi
    have hs := Real.sin_pos_of_pos_of_lt_pi h0 h1
    have := Real.sin_sq_add_cos_sq (polar p i)
    constructor <;> intro e <;> rw [e] at this <;> nlinarith
  cases u with
  | top => cases v with
    | top => rfl
    | bot => simp [sphPt] at hz; exact absurd (by linarith) hr
    | g i j =>
      simp [sphPt] at hz
      exact absurd (mul_left_cancel₀ hr (by linarith : r * cos (polar p i) = r * 1)) (hcos i hv.1).1
  | bot => cases v with
    | top => simp [sphPt] at hz; exact absurd (by linarith) hr
    | bot => rfl
    | g i j =>
      simp [sphPt] at hz
      exact absurd (mul_left_cancel₀ hr (by linarith : r * cos (polar p i) = r * -1)) (hcos i hv.1).2
  | g i j => cases v with
    | top =>
      simp only [sphPt, vec3_2] at hz
      exact absurd (mul_left_cancel₀ hr (by linarith : r * cos (polar p i) = r * 1)) (hcos i hu.1).1
    | bot =>
      simp only [sphPt, vec3_2] at hz
      exact absurd (mul_left_cancel₀ hr (by linarith : r * cos (polar p i) = r * -1)) (hcos i hu.1).2
    | g k l =>
      simp only [sphPt, vec3_2] at hz
      have hc := mul_left_cancel₀ hr hz
      obtain ⟨a0, a1⟩ := polar_mem hu.1
      obtain ⟨b0, b1⟩ := polar_mem hv.1
      have hik := polar_inj hu.1 (Real.injOn_cos ⟨a0.le, a1.le⟩ ⟨b0.le, b1.le⟩ hc)
      subst hik
      have hs : r * sin (polar p i) ≠ 0 := mul_ne_zero hr (Real.sin_pos_of_pos_of_lt_pi a0 a1).ne'
      have hx := congrFun h 0
      have hy := congrFun h 1
      simp only [sphPt, vec3_0, vec3_1] at hx hy
      rw [azimuth_inj (.inl rfl) hu.2 hv.2 (mul_left_cancel₀ hs hx) (mul_left_cancel₀ hs hy)]

theorem sphPt_dp (r : ℝ) (p n : Nat) (v : SphV) : sphPt r p n v ⬝ᵥ sphPt r p n v = r ^ 2 := by
  rw [dp3]
  cases v with
  | top => simp [sphPt]; ring
  | bot => simp [sphPt]; ring
  | g i j =>
    simp only [sphPt, vec3_0, vec3_1, vec3_2]
    linear_combination r ^ 2 * sin (polar p i) ^ 2 * Real.sin_sq_add_cos_sq (azimuth n 1 j) +
      r ^ 2 * Real.sin_sq_add_cos_sq (polar p i)

section
variable [BEq (HMat ℝ)] [LawfulBEq (HMat ℝ)] [BEq (Vec ℝ 3)] [LawfulBEq (Vec ℝ 3)]

theorem calcSpherePoints_eq (s : Sphere ℝ) (p n : Nat) :
    calcSpherePoints s p n = (sphVerts p n).map fun v => sphPt s.radius p n v + s.origin := by
  have hbase : ((List.range' 1 (p - 1)).flatMap fun (i : Nat) =>
      (List.range n).map fun (j : Nat) =>
        vec3 (s.radius * HasTrig.sin ((i : ℝ) * (HasTrig.pi / (p : ℝ))) * HasTrig.cos ((j : ℝ) * (2 * HasTrig.pi / (n : ℝ))))
          (s.radius * HasTrig.sin ((i : ℝ) * (HasTrig.pi / (p : ℝ))) * HasTrig.sin ((j : ℝ) * (2 * HasTrig.pi / (n : ℝ))))
          (s.radius * HasTrig.cos ((i : ℝ) * (HasTrig.pi / (p : ℝ))))) ++ [vec3 0 0 s.radius, vec3 0 0 (-s.radius)]
      = (sphVerts p n).map (sphPt s.radius p n) := by
    rw [sphVerts, List.map_append, List.map_flatMap]
    congr 1
    rw [List.range'_eq_map_range, List.flatMap_map]
    apply List.flatMap_congr
    intro i _
    rw [List.map_map]
    apply List.map_congr_left
    intro j _
    simp only [Function.comp, sphPt, polar, azimuth, cos_real, sin_real, pi_real, one_mul]
    rw [Nat.add_comm 1 i]
  unfold calcSpherePoints
  dsimp only
  rw [hbase]
  split
  · rw [List.map_map]
    apply List.map_congr_left
    intro v _
    show vadd _ _ = _
    rw [vadd_eq]
  · next h =>
    have h : s.origin = vec3 0 0 0 := by simpa using h
    rw [h, vec3_zero]
    simp

theorem sphPoints_nodup (s : Sphere ℝ) (hr : s.radius ≠ 0) (p n : Nat) : (calcSpherePoints s p n).Nodup := by
  rw [calcSpherePoints_eq, List.nodup_map_iff_inj_on (sphVerts_nodup p n)]
  intro u hu v hv e
  exact sphPt_inj hr (sphVerts_ok hu) (sphVerts_ok hv) (add_right_cancel e)

theorem sphPoints_length (s : Sphere ℝ) (p n : Nat) : (calcSpherePoints s p n).length = (p - 1) * n + 2 := by
  rw [calcSpherePoints_eq, List.length_map, sphVerts_length]

theorem bind_pair {α β : Type} (x : Res α) (b : β) : (x >>= fun m => Except.ok (m, b)) = x.map fun m => (m, b) := by
  cases x <;> rfl

/-- The sphere a builder builds. -/
def SphereBuilder.theSphere {T : Type} (b : SphereBuilder T) : Sphere T := b.sphere.getD ⟨b.origin, b.radius⟩

theorem sphereBuild_eq (dbg : Bool) (M w : Nat) (b : SphereBuilder ℝ) (hp : 2 ≤ b.polarCount) (hn : 1 ≤ b.azimuthCount)
    (hM : (b.polarCount - 1) * b.azimuthCount + 2 < M) :
    b.build dbg M w = (buildTriangleHalfedgeMesh dbg M w hmatIdentity
      (calcSpherePoints b.theSphere b.polarCount b.azimuthCount) (sphIdx b.polarCount b.azimuthCount)).map
      fun m => (m, { b with sphere := some b.theSphere }) := by
  unfold SphereBuilder.build
  dsimp only
  rw [sphPoints_length, toIdx_of_lt hM, calcSphereTriangleIndices_eq hp hn hM]
  exact bind_pair _ _

/-- **C58** Building a sphere mesh succeeds (no index out of range, no failed assertion) for all polar counts of at least
two and azimuth counts of at least one whose index buffer fits the index type. -/
theorem C58_in_range (dbg : Bool) (M w : Nat) (b : SphereBuilder ℝ) (hp : 2 ≤ b.polarCount) (hn : 1 ≤ b.azimuthCount)
    (hM : 6 * b.azimuthCount * (b.polarCount - 1) < M) : ∃ m b', b.build dbg M w = .ok (m, b') := by
  have hM' : (b.polarCount - 1) * b.azimuthCount + 2 < M := by
    have : 1 ≤ (b.polarCount - 1) * b.azimuthCount := Nat.mul_pos (by omega) hn
    nlinarith
  rw [sphereBuild_eq dbg M w b hp hn hM', build_ok dbg M w]
  · obtain ⟨m, hm, _⟩ := C48_build_succeeds dbg M w (bufferTriangles hmatIdentity
      (calcSpherePoints b.theSphere b.polarCount b.azimuthCount) (sphIdx b.polarCount b.azimuthCount))
      (by rw [bufferTriangles_length, sphIdx_length hp hn]; omega)
    exact ⟨m, _, by rw [hm]; rfl⟩
  · rw [sphIdx_length hp hn]; exact hM
  · intro h
    have := sphPoints_length b.theSphere b.polarCount b.azimuthCount
    rw [h] at this; simp at this
  · rw [sphIdx_length hp hn, Nat.mul_assoc]; omega
  · intro i hi
    rw [sphPoints_length]
    exact (sphIdx_mem hp hn i).1 hi

/-- **C58** For every polar count `p` of at least two and azimuth count `n` of at least three the sphere mesh is a closed,
consistently oriented surface with `(p - 1) n + 2` vertices, `3 n (p - 1)` edges (two line indices each) and `2 n (p - 1)`
triangles. -/
theorem C58_closed (dbg : Bool) (M w : Nat) (b : SphereBuilder ℝ) (hp : 2 ≤ b.polarCount) (hn : 3 ≤ b.azimuthCount)
    (hM : 6 * b.azimuthCount * (b.polarCount - 1) < M) (hr : b.theSphere.radius ≠ 0) :
    ∃ m b', b.build dbg M w = .ok (m, b') ∧ ClosedMesh m ∧
      m.vertices.length = (b.polarCount - 1) * b.azimuthCount + 2 ∧
      m.facets.length = 2 * b.azimuthCount * (b.polarCount - 1) ∧
      ∀ MU, (b.polarCount - 1) * b.azimuthCount + 2 ≤ MU →
        ∃ l, calcLineIndices dbg MU m = .ok l ∧ l.length = 2 * (3 * b.azimuthCount * (b.polarCount - 1)) := by
  have hM' : (b.polarCount - 1) * b.azimuthCount + 2 < M := by
    have : 1 ≤ (b.polarCount - 1) * b.azimuthCount := Nat.mul_pos (by omega) (by omega)
    nlinarith
  have hn1 : 1 ≤ b.azimuthCount := by omega
  obtain ⟨m, hm, hc, _, hv, hf, hli⟩ := closed_build dbg M w hmatIdentity
    (calcSpherePoints b.theSphere b.polarCount b.azimuthCount) (sphIdx b.polarCount b.azimuthCount)
    (by rw [sphIdx_length hp hn1]; exact hM) (by rw [sphIdx_length hp hn1, Nat.mul_assoc]; omega)
    (by
      intro h
      have := sphPoints_length b.theSphere b.polarCount b.azimuthCount
      rw [h] at this; simp at this)
    (by rw [sphPoints_length]; exact sphIdx_mem hp hn1) (sphIdx_closed hp hn)
    (by rw [sphIdx_triples]; exact loops_of_distinct (sphTri_distinct hp (by omega)))
    (sphPoints_nodup _ hr _ _) (fun p q h => by simpa only [C62_identity] using h)
  rw [sphPoints_length] at hv
  refine ⟨m, _, by rw [sphereBuild_eq dbg M w b hp hn1 hM', hm]; rfl, hc, hv, ?_, ?_⟩
  · rw [hf, sphIdx_length hp hn1, Nat.mul_assoc, Nat.mul_assoc]; omega
  · intro MU hU
    obtain ⟨l, h1, h2⟩ := hli MU (by rw [sphPoints_length]; exact hU)
    refine ⟨l, h1, ?_⟩
    rw [h2, sphIdx_length hp hn1]; ring

/-- **C60** All vertices of a sphere mesh are at distance `|radius|` from the centre. -/
theorem C60_sphere (dbg : Bool) (M w : Nat) (b : SphereBuilder ℝ) (hp : 2 ≤ b.polarCount) (hn : 1 ≤ b.azimuthCount)
    (hM : 6 * b.azimuthCount * (b.polarCount - 1) < M) (m : HalfedgeMesh (Vec ℝ 3)) (b' : SphereBuilder ℝ)
    (hm : b.build dbg M w = .ok (m, b')) : ∀ v ∈ m.points, Spec.dist v b.theSphere.origin = |b.theSphere.radius| := by
  have hM' : (b.polarCount - 1) * b.azimuthCount + 2 < M := by
    have : 1 ≤ (b.polarCount - 1) * b.azimuthCount := Nat.mul_pos (by omega) hn
    nlinarith
  rw [sphereBuild_eq dbg M w b hp hn hM'] at hm
  intro v hv
  have hm' : buildTriangleHalfedgeMesh dbg M w hmatIdentity
      (calcSpherePoints b.theSphere b.polarCount b.azimuthCount) (sphIdx b.polarCount b.azimuthCount) = .ok m := by
    revert hm
    cases buildTriangleHalfedgeMesh dbg M w hmatIdentity
      (calcSpherePoints b.theSphere b.polarCount b.azimuthCount) (sphIdx b.polarCount b.azimuthCount) with
    | error e => intro h; simp [Except.map] at h
    | ok a => intro h; simp only [Except.map, Except.ok.injEq, Prod.mk.injEq] at h; rw [h.1]
  obtain ⟨q, hq, rfl⟩ := build_points_mem dbg M w _ _ _ (by rw [sphIdx_length hp hn]; exact hM) m hm' v hv
  rw [C62_identity]
  rw [calcSpherePoints_eq] at hq
  obtain ⟨u, _, rfl⟩ := List.mem_map.1 hq
  rw [spec_dist_eq, add_sub_cancel_right, sphPt_dp, Real.sqrt_sq_eq_abs]

/-- **C60** Different indices give different points, for cones, cylinders and spheres. -/
theorem C60_distinct (dbg : Bool) (M n : Nat) (r h : ℝ) (hr : r ≠ 0) (hh : h ≠ 0) :
    (n + 1 < M → ∀ ps idx, calcConeTriangles M r h n = .ok (ps, idx) → ps.Nodup ∧ ps.length = n + 2) ∧
    (2 ≤ n → 2 * n + 2 < M → ∀ ps idx, calcCylinderTriangles dbg M r h n = .ok (ps, idx) → ps.Nodup ∧ ps.length = 2 * n + 2) ∧
    (∀ o p, (calcSpherePoints ⟨o, r⟩ p n).Nodup ∧ (calcSpherePoints ⟨o, r⟩ p n).length = (p - 1) * n + 2) := by
  refine ⟨?_, ?_, fun o p => ⟨sphPoints_nodup _ hr _ _, sphPoints_length _ _ _⟩⟩
  · intro hM ps idx e
    rw [calcConeTriangles_eq M r h n hM] at e
    cases e
    exact ⟨conePoints_nodup hr hh n, by simp [discretizeCircle_eq]⟩
  · intro hn hM ps idx e
    rw [calcCylinderTriangles_eq dbg M r h n hn hM] at e
    cases e
    exact ⟨cylPoints_nodup hr hh n, cylPoints_length r h n⟩

/-- **C58** With polar count 1, or with azimuth count 0, building a sphere reads outside the point array. -/
theorem C58_small_counterexample (dbg : Bool) (M w : Nat) (b : SphereBuilder ℝ) (hM : 7 ≤ M)
    (hb : (b.polarCount = 1 ∧ 6 * b.azimuthCount < M) ∨ (b.azimuthCount = 0 ∧ 1 ≤ b.polarCount ∧ 6 * b.polarCount < M)) :
    b.build dbg M w = .error .outOfRange := by
  unfold SphereBuilder.build
  dsimp only
  rw [sphPoints_length, show (b.polarCount - 1) * b.azimuthCount + 2 = 2 by
    rcases hb with ⟨h, _⟩ | ⟨h, _⟩ <;> rw [h] <;> simp, toIdx_of_lt (show 2 < M by omega)]
  have hl : ∀ s : Sphere ℝ, (calcSpherePoints s b.polarCount b.azimuthCount).length = 2 := by
    intro s
    rw [sphPoints_length]
    rcases hb with ⟨h, _⟩ | ⟨h, _⟩ <;> rw [h] <;> simp
  obtain ⟨hlen, h3, t, ht, hbad⟩ : 3 * ((calcSphereTriangleIndices M b.polarCount b.azimuthCount 2).length / 3) < M ∧
      (calcSphereTriangleIndices M b.polarCount b.azimuthCount 2).length % 3 = 0 ∧
      ∃ t ∈ triples (calcSphereTriangleIndices M b.polarCount b.azimuthCount 2), ¬ (t.1 < 2 ∧ t.2.1 < 2 ∧ t.2.2 < 2) := by
    rcases hb with ⟨h, hn⟩ | ⟨h, hp, hp'⟩
    · rw [h]
      have e1 : subM M 1 1 - 1 = 0 := by rw [subM_of_le le_rfl (by omega)]
      have e2 : subM M 1 2 = M - 1 := by unfold subM; rw [Nat.mod_eq_of_lt (by omega)]; omega
      have hlen : (calcSphereTriangleIndices M 1 b.azimuthCount 2).length = 6 + 6 * (b.azimuthCount - 1) := by
        unfold calcSphereTriangleIndices
        dsimp only
        rw [e1]
        simp [List.length_flatMap, sphereCapRound]; omega
      refine ⟨by rw [hlen]; omega, by rw [hlen]; omega, ?_⟩
      by_cases h3 : 3 ≤ b.azimuthCount
      · refine ⟨(sphereIdx M b.azimuthCount 0 (subM M b.azimuthCount 1), subM M 2 2, sphereIdx M b.azimuthCount 0 0), ?_, ?_⟩
        · simp [calcSphereTriangleIndices, triples]
        · intro hlt
          have := hlt.1
          simp only [sphereIdx, Nat.zero_mul, Nat.zero_add] at this
          rw [subM_of_le (show 1 ≤ b.azimuthCount by omega) (by omega), Nat.mod_eq_of_lt (by omega)] at this
          omega
      · refine ⟨(sphereIdx M b.azimuthCount (M - 1) 0, subM M 2 1,
          sphereIdx M b.azimuthCount (M - 1) (subM M b.azimuthCount 1)), ?_, ?_⟩
        · simp [calcSphereTriangleIndices, triples, e2]
        · intro hlt
          rcases (by omega : b.azimuthCount = 0 ∨ b.azimuthCount = 1 ∨ b.azimuthCount = 2) with h | h | h
          · have := hlt.2.2
            rw [h] at this
            have e : subM M 0 1 = M - 1 := by unfold subM; rw [Nat.mod_eq_of_lt (by omega)]; omega
            simp only [sphereIdx, e, Nat.mul_zero, Nat.zero_add] at this
            rw [Nat.mod_eq_of_lt (by omega)] at this
            omega
          · have := hlt.1
            rw [h] at this
            simp only [sphereIdx, Nat.mul_one, Nat.add_zero] at this
            rw [Nat.mod_eq_of_lt (by omega)] at this
            omega
          · have := hlt.1
            rw [h] at this
            simp only [sphereIdx, Nat.add_zero] at this
            rw [show (M - 1) * 2 = (M - 2) + M by omega, Nat.add_mod_right, Nat.mod_eq_of_lt (by omega)] at this
            omega
    · rw [h]
      have e : subM M 0 1 = M - 1 := by unfold subM; rw [Nat.mod_eq_of_lt (by omega)]; omega
      have hlen : (calcSphereTriangleIndices M b.polarCount 0 2).length = 6 + 6 * (b.polarCount - 1 - 1) := by
        unfold calcSphereTriangleIndices
        dsimp only
        rw [subM_of_le hp (by omega)]
        simp [List.length_flatMap, sphereWrap]; omega
      refine ⟨by rw [hlen]; omega, by rw [hlen]; omega,
        (sphereIdx M 0 0 (subM M 0 1), subM M 2 2, sphereIdx M 0 0 0), ?_, ?_⟩
      · simp [calcSphereTriangleIndices, triples]
      · intro hlt
        have := hlt.1
        simp only [sphereIdx, e, Nat.mul_zero, Nat.zero_add] at this
        rw [Nat.mod_eq_of_lt (by omega)] at this
        omega
  rcases build_cases dbg M w hmatIdentity (calcSpherePoints (b.sphere.getD ⟨b.origin, b.radius⟩) b.polarCount b.azimuthCount)
    (calcSphereTriangleIndices M b.polarCount b.azimuthCount 2) hlen
    (fun _ => ⟨by intro h; have := hl (b.sphere.getD ⟨b.origin, b.radius⟩); rw [h] at this; simp at this, h3⟩) with ⟨h, _⟩ | ⟨_, h⟩
  · have := h t ht
    rw [hl] at this
    exact absurd this hbad
  · rw [h]; rfl
end

section Examples
/-- A sphere builder with the default counts. -/
def exSphere : SphereBuilder ℝ := { origin := vec3 1 2 3, radius := 2 }

example : ∃ m b', exSphere.build true 65536 16 = .ok (m, b') ∧ ClosedMesh m ∧ m.vertices.length = 182 ∧ m.facets.length = 360 := by
  obtain ⟨m, b', h1, h2, h3, h4, _⟩ := C58_closed true 65536 16 exSphere (by decide) (by decide) (by decide)
    (by simp [exSphere, SphereBuilder.theSphere])
  exact ⟨m, b', h1, h2, h3, h4⟩

example : ∃ m b', exSphere.build true 65536 16 = .ok (m, b') ∧ ∀ v ∈ m.points, Spec.dist v (vec3 1 2 3) = |2| := by
  obtain ⟨m, b', h⟩ := C58_in_range true 65536 16 exSphere (by decide) (by decide) (by decide)
  exact ⟨m, b', h, C60_sphere true 65536 16 exSphere (by decide) (by decide) (by decide) m b' h⟩

example : ({ exSphere with polarCount := 1 } : SphereBuilder ℝ).build true 65536 16 = .error .outOfRange :=
  C58_small_counterexample true 65536 16 _ (by decide) (.inl ⟨rfl, by decide⟩)

example : (calcSpherePoints (⟨vec3 1 2 3, 2⟩ : Sphere ℝ) 10 20).Nodup :=
  ((C60_distinct true 65536 20 2 1 (by norm_num) (by norm_num)).2.2 (vec3 1 2 3) 10).1
end Examples
end Verif
