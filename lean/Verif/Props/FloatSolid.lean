import Verif.Proofs.FloatSolid
import Verif.Spec.FloatSolid

set_option linter.unusedSectionVars false

/-
C96: meshes of cones and cylinders in floating point are closed and accurate.
-/
namespace Verif
open Spec Matrix Real

/-! ### The exact corners -/

theorem affine_ring {Q : Matrix (Fin 3) (Fin 3) ℝ} {S : Vec ℝ 3} {r : ℝ} {n : Nat} (dir : CircleDir) {z : ℝ} {T : Vec ℝ 3}
    (hT : affine Q S (vec3 0 0 z) = T) :
    {e | e ∈ (discretizeCircle (vec3 0 0 z) r n dir).map (affine Q S)} = ring Q T r n := by
  have key : ∀ i, affine Q S (vec3 0 0 z + circlePt r n 1 i)
      = T + Q *ᵥ ![r * Real.cos (2 * Real.pi * i / n), r * Real.sin (2 * Real.pi * i / n), 0] := by
    intro i
    have e : circlePt r n 1 i = ![r * Real.cos (2 * Real.pi * i / n), r * Real.sin (2 * Real.pi * i / n), 0] := by
      have e1 : azimuth n 1 i = 2 * Real.pi * i / n := by unfold azimuth; ring
      funext c
      fin_cases c
      · show cos (azimuth n 1 i) * r = r * _; rw [e1, mul_comm]
      · show sin (azimuth n 1 i) * r = r * _; rw [e1, mul_comm]
      · rfl
    rw [← hT, ← e]
    unfold affine
    rw [mulVec_add]; abel
  have neg : ∀ i, i < n → ∃ j < n, circlePt r n (-1) i = circlePt r n 1 j := by
    intro i hi
    have hn : (n : ℝ) ≠ 0 := by exact_mod_cast (by omega : n ≠ 0)
    by_cases h0 : i = 0
    · exact ⟨0, by omega, by subst h0; simp [circlePt, azimuth]⟩
    · refine ⟨n - i, by omega, ?_⟩
      have e : azimuth n (-1) i = azimuth n 1 (n - i) - 2 * π := by
        unfold azimuth
        rw [Nat.cast_sub hi.le]
        field_simp
        ring
      unfold circlePt
      rw [e, Real.cos_sub_two_pi, Real.sin_sub_two_pi]
  have neg' : ∀ i, i < n → ∃ j < n, circlePt r n 1 i = circlePt r n (-1) j := by
    intro i hi
    have hn : (n : ℝ) ≠ 0 := by exact_mod_cast (by omega : n ≠ 0)
    by_cases h0 : i = 0
    · exact ⟨0, by omega, by subst h0; simp [circlePt, azimuth]⟩
    · refine ⟨n - i, by omega, ?_⟩
      have e : azimuth n 1 i = azimuth n (-1) (n - i) + 2 * π := by
        unfold azimuth
        rw [Nat.cast_sub hi.le]
        field_simp
        ring
      unfold circlePt
      rw [e, Real.cos_add_two_pi, Real.sin_add_two_pi]
  ext e
  rw [discretizeCircle_eq, List.map_map, Set.mem_ofPred_eq, List.mem_map]
  constructor
  · rintro ⟨i, hi, rfl⟩
    have hi := List.mem_range.1 hi
    rcases dirSign_cases dir with h | h
    · exact ⟨i, hi, by rw [← key, Function.comp_apply, h]⟩
    · obtain ⟨j, hj, hij⟩ := neg i hi
      exact ⟨j, hj, by rw [← key, Function.comp_apply, h, hij]⟩
  · rintro ⟨i, hi, rfl⟩
    rcases dirSign_cases dir with h | h
    · exact ⟨i, List.mem_range.2 hi, by rw [← key, Function.comp_apply, h]⟩
    · obtain ⟨j, hj, hij⟩ := neg' i hi
      exact ⟨j, List.mem_range.2 hj, by rw [← key, Function.comp_apply, h, hij]⟩

theorem affine_axis {Q : Matrix (Fin 3) (Fin 3) ℝ} {S T : Vec ℝ 3} {H : ℝ} (hH : H ≠ 0)
    (hQ : Q *ᵥ ![0, 0, 1] = fun c => (T c - S c) / H) : affine Q S (vec3 0 0 0) = S ∧ affine Q S (vec3 0 0 H) = T := by
  have e : ∀ z : ℝ, vec3 0 0 z = z • (![0, 0, 1] : Vec ℝ 3) := fun z => by
    funext c; fin_cases c <;> simp [vec3]
  have k : ∀ z : ℝ, affine Q S (vec3 0 0 z) = fun c => z * ((T c - S c) / H) + S c := by
    intro z
    unfold affine
    rw [e, mulVec_smul, hQ]
    rfl
  constructor
  · rw [k]; funext c; ring
  · rw [k]; funext c; field_simp; ring

/-! ### Computed points -/
section
variable {F : FloatFormat} [HasTrig (Fl F)]

/-- What the conditions on the numbers give. -/
theorem solid_consts {r H A K : ℝ} {n : Nat} (hn : 3 ≤ n) (hr : 0 < r) (hH : 0 < H) (hA : 0 ≤ A) (hK : 0 ≤ K)
    (hbig : (16 * K + 512) * n * F.unit * (r + H + A) ≤ r) :
    (n : ℝ) * F.unit ≤ 1 / 512 ∧ F.unit ≤ 1 / 1536 ∧ K * F.unit ≤ 1 / 48 ∧ 64 * (3 + 2) ≤ 2 ^ F.prec := by
  have hu0 := F.unit_pos
  have hP : 0 < r + H + A := by positivity
  have h1 : (16 * K + 512) * n * F.unit ≤ 1 := by
    have : (16 * K + 512) * n * F.unit * (r + H + A) ≤ 1 * (r + H + A) := by linarith
    exact le_of_mul_le_mul_right this hP
  have hnu : 3 * F.unit ≤ n * F.unit := mul_le_mul_of_nonneg_right (by exact_mod_cast hn) hu0.le
  have h2 : (16 * K + 512) * n * F.unit = 16 * (K * (n * F.unit)) + 512 * (n * F.unit) := by ring
  have h3 : K * (3 * F.unit) ≤ K * (n * F.unit) := mul_le_mul_of_nonneg_left hnu hK
  have h4 : 0 ≤ K * F.unit := by positivity
  have hu : F.unit ≤ 1 / 1536 := by linarith
  refine ⟨by linarith, hu, by linarith, ?_⟩
  have h5 : F.unit = ((2 : ℝ) ^ F.prec)⁻¹ := by unfold FloatFormat.unit; rw [inv_pow]
  rw [h5, inv_le_comm₀ (by positivity) (by norm_num)] at hu
  have h6 : (320 : ℝ) ≤ 2 ^ F.prec := by norm_num at hu; linarith
  exact_mod_cast h6

/-- Computed points of a solid: near the exact corners, pairwise different and resolved. -/
theorem solid_points {R : HMat (Fl F)} {src : Vec (Fl F) 3} {Q : Matrix (Fin 3) (Fin 3) ℝ} {K A r H : ℝ} {n : Nat} (hn : 3 ≤ n) (hr : 0 < r)
    (hH : 0 < H) (hQ : Orthogonal Q) (hR : ∀ i j : Fin 3, |(R i.castSucc j.castSucc).1 - Q i j| ≤ K * F.unit) (hK : 0 ≤ K)
    (hA : ∀ c, |(src c).1| ≤ A) (hbig : (16 * K + 512) * n * F.unit * (r + H + A) ≤ r)
    (hsmall : ∀ k, F.emin = some k → k ≤ -2 * (F.prec : ℤ) ∧ (2 : ℝ) ^ ((k + 1) / 2) ≤ (2 : ℝ)⁻¹ ^ F.prec * H)
    {pf : List (Vec (Fl F) 3)} {pe : List (Vec ℝ 3)} (hnear : List.Forall₂ (Near (33 * F.unit * (r + H))) pf pe)
    (hbound : ∀ e ∈ pe, ∀ c, |e c| ≤ r + H)
    (hsep : pe.Pairwise fun a b => (16 * K + 512) * F.unit * (r + H + A) ≤ Spec.dist a b) {ps : List (Vec (Fl F) 3)}
    (hps : ps = pf.map fun p => transformVec p (hmatSetTranslation R src)) :
    List.Forall₂ (Near ((3 * K + 122) * F.unit * (r + H + A))) ps (pe.map (affine Q fun c => (src c).1)) ∧ ps.Nodup ∧
      ∀ u ∈ ps, ∀ v ∈ ps, u ≠ v → ∃ i, Resolved F.emin (u i).1 (v i).1 := by
  have hu0 := F.unit_pos
  have hA0 : 0 ≤ A := (abs_nonneg _).trans (hA 0)
  obtain ⟨_, hu, hKu, _⟩ := solid_consts hn hr hH hA0 hK hbig
  obtain ⟨_, ht1, _⟩ := tiny_of_length hH hsmall
  have htL : F.tiny ≤ F.unit * F.unit * (r + H) := ht1.trans (mul_le_mul_of_nonneg_left (by linarith) (by positivity))
  have hF : List.Forall₂ (Near ((3 * K + 122) * F.unit * (r + H + A))) ps (pe.map (affine Q fun c => (src c).1)) := by
    rw [hps, List.forall₂_map_left_iff, List.forall₂_map_right_iff]
    clear hsep hps
    induction hnear with
    | nil => exact .nil
    | cons h _ ih =>
      exact .cons (place_err hQ hR hK hKu hu (by positivity) htL hA h (hbound _ (List.mem_cons_self ..)))
        (ih fun e he => hbound e (List.mem_cons_of_mem _ he))
  have hu' : 0 < F.unit * H := mul_pos hu0 hH
  have hpw : ps.Pairwise fun u v => ∃ c, F.unit * H ≤ |(u c).1 - (v c).1| := by
    refine pairwise_of_forall₂ hF (S := fun a b => (16 * K + 512) * F.unit * (r + H + A) ≤ Spec.dist a b) ?_ ?_
    · rw [List.pairwise_map]
      refine hsep.imp ?_
      intro a b h
      rwa [hQ.dist]
    · intro a a' b b' h1 h2 h3
      refine near_sep h1 h2 h3 ?_
      have e1 : 0 ≤ K * (F.unit * (r + H + A)) := by positivity
      have e2 : F.unit * H ≤ F.unit * (r + H + A) := mul_le_mul_of_nonneg_left (by linarith) hu0.le
      have e3 : 0 ≤ F.unit * (r + H + A) := by positivity
      linarith
  refine ⟨hF, ?_, ?_⟩
  · refine hpw.imp ?_
    rintro a b ⟨c, hc⟩ rfl
    rw [sub_self, abs_zero] at hc
    linarith
  · intro u hu v hv huv
    have : Std.Symm fun u v : Vec (Fl F) 3 => ∃ c, F.unit * H ≤ |(u c).1 - (v c).1| :=
      ⟨fun a b ⟨c, hc⟩ => ⟨c, by rwa [abs_sub_comm]⟩⟩
    obtain ⟨c, hc⟩ := hpw.forall hu hv huv
    refine ⟨c, ?_, fun k hk => (hsmall k hk).2.trans hc⟩
    intro e
    rw [e, sub_self, abs_zero] at hc
    linarith

/-- Nearness of lists as nearness of sets. -/
theorem approximates_of {d : ℝ} {ps pts : List (Vec (Fl F) 3)} {pe : List (Vec ℝ 3)} {E : Set (Vec ℝ 3)} (hF : List.Forall₂ (Near d) ps pe)
    (hmem : ∀ v, v ∈ pts ↔ v ∈ ps) (hE : {e | e ∈ pe} = E) : Approximates (pts.map fun v c => (v c).1) E d := by
  obtain ⟨h1, h2⟩ := exists_of_forall₂ hF
  subst hE
  constructor
  · intro p hp
    obtain ⟨v, hv, rfl⟩ := List.mem_map.1 hp
    exact h1 v ((hmem v).1 hv)
  · intro e he
    obtain ⟨v, hv, h⟩ := h2 e he
    exact ⟨_, List.mem_map.2 ⟨v, (hmem v).2 hv, rfl⟩, h⟩

/-- **C96** In floating point the mesh of a cone is closed and accurate.  Let `H` be the height, `r` the radius and `A` a bound on the
coordinates of the base centre; sine, cosine and pi accurate to two units in the last place; `rot_align` accurate to `K` units of roundoff
against a rotation `Q` that takes the z-axis to the exact axis.  If the count, the slenderness and the distance from the origin are not
extreme (`(16 K + 512) n u (r + H + A) ≤ r` and `(16 K + 512) u (r + H + A) ≤ H` with `u = 2^-prec`) then building succeeds, in debug
builds too if the tolerance lets values within 16 units of roundoff of one pass as one and values near `H` as nonzero; the mesh is closed
with the numbers of vertices, edges and triangles of C56; and its vertices are the corners of the exact cone up to
`(3 K + 122) u (r + H + A)` in each coordinate. -/
theorem C96_cone [Tol (Fl F)] (hl : Fl.LibAccurate F) (dbg : Bool) (M w : Nat) (rotAlign : Vec (Fl F) 4 → Vec (Fl F) 4 → HMat (Fl F))
    (cone : Cone (Fl F)) (n : Nat) (hn : 3 ≤ n) (hM : 6 * n < M) (hr : 0 < cone.radius.1) {A K H : ℝ} {S T : Vec ℝ 3}
    (hS : S = fun c => (cone.segment.source c).1) (hT : T = fun c => (cone.segment.target c).1) (hH : H = Spec.dist T S) (hH0 : 0 < H)
    (hA : ∀ c, |S c| ≤ A) (hK : 0 ≤ K) {Q : Matrix (Fin 3) (Fin 3) ℝ} (hQ : Orthogonal Q) (hQz : Q *ᵥ ![0, 0, 1] = fun c => (T c - S c) / H)
    (hR : ∀ i j : Fin 3, |(rotAlign (hvec4 0 0 1 1) (toHvec cone.segment.direction) i.castSucc j.castSucc).1 - Q i j| ≤ K * (2 : ℝ)⁻¹ ^ F.prec)
    (hbig : (16 * K + 512) * n * (2 : ℝ)⁻¹ ^ F.prec * (cone.radius.1 + H + A) ≤ cone.radius.1)
    (hbigH : (16 * K + 512) * (2 : ℝ)⁻¹ ^ F.prec * (cone.radius.1 + H + A) ≤ H)
    (hsmall : ∀ k, F.emin = some k → k ≤ -2 * (F.prec : ℤ) ∧ (2 : ℝ) ^ ((k + 1) / 2) ≤ (2 : ℝ)⁻¹ ^ F.prec * H)
    (htol : dbg = true → (∀ a : Fl F, |a.1 - 1| ≤ 16 * (2 : ℝ)⁻¹ ^ F.prec → isEq a 1 = true) ∧
      ∀ a : Fl F, |a.1 - H| ≤ 7 * (2 : ℝ)⁻¹ ^ F.prec * H → isZero a = false) :
    ∃ m, coneBuild dbg M w rotAlign (some cone) n = .ok (some m) ∧ ClosedMesh m ∧ m.vertices.length = n + 2 ∧ m.facets.length = 2 * n ∧
      (∀ MU, n + 2 ≤ MU → ∃ l, calcLineIndices dbg MU m = .ok l ∧ l.length = 2 * (3 * n)) ∧
      Approximates (m.points.map fun v c => (v c).1) ({S, T} ∪ ring Q S cone.radius.1 n)
        ((3 * K + 122) * (2 : ℝ)⁻¹ ^ F.prec * (cone.radius.1 + H + A)) := by
  change (16 * K + 512) * n * F.unit * (cone.radius.1 + H + A) ≤ cone.radius.1 at hbig
  change (16 * K + 512) * F.unit * (cone.radius.1 + H + A) ≤ H at hbigH
  have hu0 := F.unit_pos
  have hA0 : 0 ≤ A := (abs_nonneg _).trans (hA 0)
  obtain ⟨hnu, hu, hKu, hD⟩ := solid_consts hn hr hH0 hA0 hK hbig
  have hHd : H = Spec.dist (fun c => (cone.segment.target c).1) (fun c => (cone.segment.source c).1) := by rw [hH, hT, hS]
  have hlen := C95_length cone.segment hD (hHd ▸ hH0) (hHd ▸ hsmall)
  have hdir := (C95_direction cone.segment hD (hHd ▸ hH0) (hHd ▸ hsmall)).2
  rw [← hHd] at hlen
  obtain ⟨ht0, ht1, _⟩ := tiny_of_length hH0 hsmall
  have hlen' : |cone.segment.length.1 - H| ≤ 7 * F.unit * H := by
    rw [show (7 : ℝ) = ((3 : ℕ) : ℝ) + 4 by norm_num]; exact hlen
  have hdir' : |(length cone.segment.direction).1 - 1| ≤ 16 * (2 : ℝ)⁻¹ ^ F.prec := by
    rw [show (16 : ℝ) = 3 * ((3 : ℕ) : ℝ) + 7 by norm_num]; exact hdir
  have huH : 0 < F.unit * H := mul_pos hu0 hH0
  have hur : 0 < F.unit * cone.radius.1 := mul_pos hu0 hr
  have hpts := (conePoints_near (h := cone.segment.length) (H := H) hl (by linarith) (by rw [pow_two]; exact ht0) hr.le
    (show cone.radius.1 ≤ cone.radius.1 + H by linarith)
    (ht1.trans (mul_le_mul_of_nonneg_left (by linarith) (by positivity))) (n := n) (by linarith) (by linarith)).1
  have hs0 : 0 ≤ (16 * K + 512) * F.unit * (cone.radius.1 + H + A) := by positivity
  have hbound : ∀ e ∈ conePoints cone.radius.1 H n, ∀ c, |e c| ≤ cone.radius.1 + H := by
    intro e he c
    unfold conePoints at he
    rcases List.mem_append.1 he with he | he
    · have := circle_bound 0 hr.le le_rfl he c; linarith
    · exact circle_bound (n := 0) (dir := .ccw) H hr.le hH0.le (List.mem_cons.2 (.inl (List.mem_singleton.1 he))) c
  have hsep := conePoints_pairwise (r := cone.radius.1) (h := H) (n := n) hs0 (by linarith) hbigH
  subst hS
  obtain ⟨hF, hnd, hres⟩ := solid_points hn hr hH0 hQ hR hK hA hbig hsmall hpts hbound hsep rfl
  obtain ⟨m, hm, _, hmem, hfac, _, hcl⟩ := C92_cone dbg M w rotAlign cone n hn hM
    (fun h => (htol h).2 _ hlen') (fun h => (htol h).1 _ hdir') _ rfl hres
  obtain ⟨h1, h2, h3⟩ := hcl hnd
  refine ⟨m, hm, h1, h2, hfac, h3, approximates_of hF hmem ?_⟩
  obtain ⟨a0, a1⟩ := affine_axis hH0.ne' hQz
  have hring := affine_ring (r := cone.radius.1) (n := n) .ccw a0
  rw [← hring]
  ext e
  simp only [conePoints, List.cons_append, List.map_cons, List.map_append, List.map_nil, List.mem_cons, List.mem_append, List.not_mem_nil,
    or_false, Set.mem_ofPred_eq, Set.mem_union, Set.mem_insert_iff, Set.mem_singleton_iff, a0, a1]
  tauto

/-- **C96** The same for cylinders; the top ring lies around the target. -/
theorem C96_cylinder (hl : Fl.LibAccurate F) (dbg : Bool) (M w : Nat) (rotAlign : Vec (Fl F) 4 → Vec (Fl F) 4 → HMat (Fl F))
    (cyl : Cylinder (Fl F)) (n : Nat) (hn : 3 ≤ n) (hM : 12 * n < M) (hr : 0 < cyl.radius.1) {A K H : ℝ} {S T : Vec ℝ 3}
    (hS : S = fun c => (cyl.segment.source c).1) (hT : T = fun c => (cyl.segment.target c).1) (hH : H = Spec.dist T S) (hH0 : 0 < H)
    (hA : ∀ c, |S c| ≤ A) (hK : 0 ≤ K) {Q : Matrix (Fin 3) (Fin 3) ℝ} (hQ : Orthogonal Q) (hQz : Q *ᵥ ![0, 0, 1] = fun c => (T c - S c) / H)
    (hR : ∀ i j : Fin 3, |(rotAlign (hvec4 0 0 1 1) (toHvec cyl.segment.direction) i.castSucc j.castSucc).1 - Q i j| ≤ K * (2 : ℝ)⁻¹ ^ F.prec)
    (hbig : (16 * K + 512) * n * (2 : ℝ)⁻¹ ^ F.prec * (cyl.radius.1 + H + A) ≤ cyl.radius.1)
    (hbigH : (16 * K + 512) * (2 : ℝ)⁻¹ ^ F.prec * (cyl.radius.1 + H + A) ≤ H)
    (hsmall : ∀ k, F.emin = some k → k ≤ -2 * (F.prec : ℤ) ∧ (2 : ℝ) ^ ((k + 1) / 2) ≤ (2 : ℝ)⁻¹ ^ F.prec * H) :
    ∃ m, cylinderBuild dbg M w rotAlign (some cyl) n = .ok (some m) ∧ ClosedMesh m ∧ m.vertices.length = 2 * n + 2 ∧
      m.facets.length = 4 * n ∧ (∀ MU, 2 * n + 2 ≤ MU → ∃ l, calcLineIndices dbg MU m = .ok l ∧ l.length = 2 * (6 * n)) ∧
      Approximates (m.points.map fun v c => (v c).1) ({S, T} ∪ ring Q S cyl.radius.1 n ∪ ring Q T cyl.radius.1 n)
        ((3 * K + 122) * (2 : ℝ)⁻¹ ^ F.prec * (cyl.radius.1 + H + A)) := by
  change (16 * K + 512) * n * F.unit * (cyl.radius.1 + H + A) ≤ cyl.radius.1 at hbig
  change (16 * K + 512) * F.unit * (cyl.radius.1 + H + A) ≤ H at hbigH
  have hu0 := F.unit_pos
  have hA0 : 0 ≤ A := (abs_nonneg _).trans (hA 0)
  obtain ⟨hnu, hu, hKu, hD⟩ := solid_consts hn hr hH0 hA0 hK hbig
  have hHd : H = Spec.dist (fun c => (cyl.segment.target c).1) (fun c => (cyl.segment.source c).1) := by rw [hH, hT, hS]
  have hlen := C95_length cyl.segment hD (hHd ▸ hH0) (hHd ▸ hsmall)
  rw [← hHd] at hlen
  obtain ⟨ht0, ht1, _⟩ := tiny_of_length hH0 hsmall
  have hlen' : |cyl.segment.length.1 - H| ≤ 7 * F.unit * H := by
    rw [show (7 : ℝ) = ((3 : ℕ) : ℝ) + 4 by norm_num]; exact hlen
  have huH : 0 < F.unit * H := mul_pos hu0 hH0
  have hur : 0 < F.unit * cyl.radius.1 := mul_pos hu0 hr
  have hpts := (conePoints_near (h := cyl.segment.length) (H := H) hl (by linarith) (by rw [pow_two]; exact ht0) hr.le
    (show cyl.radius.1 ≤ cyl.radius.1 + H by linarith)
    (ht1.trans (mul_le_mul_of_nonneg_left (by linarith) (by positivity))) (n := n) (by linarith) (by linarith)).2
  have hs0 : 0 ≤ (16 * K + 512) * F.unit * (cyl.radius.1 + H + A) := by positivity
  have hbound : ∀ e ∈ cylPoints cyl.radius.1 H n, ∀ c, |e c| ≤ cyl.radius.1 + H := by
    intro e he c
    unfold cylPoints at he
    rcases List.mem_append.1 he with he | he
    · have := circle_bound 0 hr.le le_rfl he c; linarith
    · exact circle_bound H hr.le hH0.le he c
  have hsep := cylPoints_pairwise (r := cyl.radius.1) (h := H) (n := n) hs0 (by linarith) hbigH
  subst hS
  obtain ⟨hF, hnd, hres⟩ := solid_points hn hr hH0 hQ hR hK hA hbig hsmall hpts hbound hsep rfl
  obtain ⟨m, hm, _, hmem, hfac, _, hcl⟩ := C92_cylinder dbg M w rotAlign cyl n hn hM _ rfl hres
  obtain ⟨h1, h2, h3⟩ := hcl hnd
  refine ⟨m, hm, h1, h2, hfac, h3, approximates_of hF hmem ?_⟩
  obtain ⟨a0, a1⟩ := affine_axis hH0.ne' hQz
  rw [← affine_ring (r := cyl.radius.1) (n := n) .ccw a0, ← affine_ring (r := cyl.radius.1) (n := n) .cw a1]
  ext e
  simp only [cylPoints, List.cons_append, List.map_cons, List.map_append, List.mem_cons, List.mem_append,
    Set.mem_ofPred_eq, Set.mem_union, Set.mem_insert_iff, Set.mem_singleton_iff, a0, a1]
  tauto
end

/-! ### Concrete cases -/
section Examples
open Classical
attribute [local instance] roundedTrig

/-- Comparison with tolerance `10^-6`, in `double`. -/
@[instance_reducible] noncomputable def tol64 : Tol (Fl binary64) where
  eps := Fl.round (1 / 10 ^ 6)
  isLess a b _ := decide (a.1 < b.1 - 1 / 10 ^ 6)
  isGreater a b _ := decide (b.1 < a.1 - 1 / 10 ^ 6)
  isLessEq a b _ := decide (a.1 ≤ b.1 + 1 / 10 ^ 6)
  isGreaterEq a b _ := decide (b.1 ≤ a.1 + 1 / 10 ^ 6)
  isEq a b _ := decide (|a.1 - b.1| < 1 / 10 ^ 6)
  isZero a _ := decide (|a.1| < 1 / 10 ^ 6)
attribute [local instance] tol64

/-- The axis from (1, 2, 3) to (4, 6, 3), of length 5, and a rotation taking the z-axis to it. -/
noncomputable def axis64 : Segment (Fl binary64) 3 := ⟨vec3 (fl64 1) (fl64 2) (fl64 3), vec3 (fl64 4) (fl64 6) (fl64 3)⟩
noncomputable def rotQ : Matrix (Fin 3) (Fin 3) ℝ := !![0, 4 / 5, 3 / 5; 0, -3 / 5, 4 / 5; 1, 0, 0]
/-- The rounded rotation. -/
noncomputable def rot64 (_ _ : Vec (Fl binary64) 4) : HMat (Fl binary64) := fun i j =>
  if h : i < 3 ∧ j < 3 then Fl.round (rotQ (i.castLT h.1) (j.castLT h.2)) else 0

theorem axis64_dist : (5 : ℝ) = Spec.dist (vec3 4 6 3 : Vec ℝ 3) (vec3 1 2 3) := by
  unfold Spec.dist
  rw [Fin.sum_univ_three]
  simp only [vec3_0, vec3_1, vec3_2]
  rw [show ((4 : ℝ) - 1) ^ 2 + (6 - 2) ^ 2 + (3 - 3) ^ 2 = 5 ^ 2 by norm_num, Real.sqrt_sq (by norm_num)]

theorem axis64_source : (vec3 1 2 3 : Vec ℝ 3) = fun c => (axis64.source c).1 := by
  funext c
  fin_cases c
  · show (1 : ℝ) = ((1 : ℤ) : ℝ); norm_num
  · show (2 : ℝ) = ((2 : ℤ) : ℝ); norm_num
  · show (3 : ℝ) = ((3 : ℤ) : ℝ); norm_num

theorem axis64_target : (vec3 4 6 3 : Vec ℝ 3) = fun c => (axis64.target c).1 := by
  funext c
  fin_cases c
  · show (4 : ℝ) = ((4 : ℤ) : ℝ); norm_num
  · show (6 : ℝ) = ((6 : ℤ) : ℝ); norm_num
  · show (3 : ℝ) = ((3 : ℤ) : ℝ); norm_num

theorem axis64_le (c : Fin 3) : |(vec3 1 2 3 : Vec ℝ 3) c| ≤ 3 := by
  fin_cases c
  · show |(1 : ℝ)| ≤ 3; norm_num
  · show |(2 : ℝ)| ≤ 3; norm_num
  · show |(3 : ℝ)| ≤ 3; norm_num

theorem rotQ_orthogonal : Orthogonal rotQ := by
  unfold Orthogonal rotQ
  ext i j
  fin_cases i <;> fin_cases j <;> simp [Matrix.mul_apply, Fin.sum_univ_three] <;> norm_num

theorem rotQ_axis : rotQ *ᵥ ![0, 0, 1] = fun c => ((vec3 4 6 3 : Vec ℝ 3) c - (vec3 1 2 3 : Vec ℝ 3) c) / 5 := by
  unfold rotQ
  funext c
  fin_cases c <;> simp [Matrix.mulVec, dotProduct, Fin.sum_univ_three, vec3] <;> norm_num

theorem rot64_err (u v : Vec (Fl binary64) 4) (i j : Fin 3) :
    |(rot64 u v i.castSucc j.castSucc).1 - rotQ i j| ≤ 2 * (2 : ℝ)⁻¹ ^ binary64.prec := by
  have h : rot64 u v i.castSucc j.castSucc = Fl.round (rotQ i j) := by
    unfold rot64
    rw [dif_pos ⟨by fin_cases i <;> decide, by fin_cases j <;> decide⟩]
    congr 1
  rw [h]
  refine (binary64.err (rotQ i j)).trans ?_
  have h1 := orthogonal_le_one rotQ_orthogonal i j
  have h2 : binary64.tiny ≤ binary64.unit := by
    show (2 : ℝ) ^ (-1074 : ℤ) ≤ (2 : ℝ)⁻¹ ^ 53
    rw [inv_pow, ← zpow_natCast, ← zpow_neg]
    exact zpow_le_zpow_right₀ (by norm_num) (by norm_num)
  have h3 := mul_le_mul_of_nonneg_left h1 binary64.unit_pos.le
  show _ ≤ 2 * binary64.unit
  linarith

/-- A cone of radius 2 on that axis, in `double`, in a debug build. -/
example : ∃ m, coneBuild true (2 ^ 64) 64 rot64 (some ⟨axis64, fl64 2⟩) 20 = .ok (some m) ∧ ClosedMesh m ∧ m.vertices.length = 22 ∧
    ∃ v ∈ m.points, |(v 1).1 - 6| ≤ 1 / 10 ^ 12 := by
  obtain ⟨m, h1, h2, h3, _, _, h4⟩ := C96_cone lib64 true (2 ^ 64) 64 rot64 ⟨axis64, fl64 2⟩ 20 (by norm_num) (by norm_num)
    (by show (0 : ℝ) < ((2 : ℤ) : ℝ); norm_num) (A := 3) (K := 2) axis64_source axis64_target axis64_dist (by norm_num) axis64_le
    (by norm_num) rotQ_orthogonal rotQ_axis (rot64_err _ _)
    (by show (16 * 2 + 512) * ((20 : ℕ) : ℝ) * (2 : ℝ)⁻¹ ^ 53 * (((2 : ℤ) : ℝ) + 5 + 3) ≤ ((2 : ℤ) : ℝ); norm_num)
    (by show (16 * 2 + 512) * (2 : ℝ)⁻¹ ^ 53 * (((2 : ℤ) : ℝ) + 5 + 3) ≤ 5; norm_num)
    (small64 (by norm_num)) (by
      intro _
      constructor
      · intro a ha
        refine decide_eq_true (lt_of_le_of_lt ha ?_)
        show 16 * (2 : ℝ)⁻¹ ^ 53 < _
        norm_num
      · intro a ha
        refine decide_eq_false ?_
        have h1 : |a.1 - 5| ≤ 1 := ha.trans (by show 7 * (2 : ℝ)⁻¹ ^ 53 * 5 ≤ 1; norm_num)
        have h2 := (abs_le.1 h1).1
        rw [not_lt]
        refine le_trans ?_ (le_abs_self _)
        norm_num
        linarith)
  refine ⟨m, h1, h2, h3, ?_⟩
  obtain ⟨p, hp, he⟩ := h4.2 (vec3 4 6 3) (.inl (.inr rfl))
  obtain ⟨v, hv, rfl⟩ := List.mem_map.1 hp
  refine ⟨v, hv, (he 1).trans ?_⟩
  show (3 * 2 + 122) * (2 : ℝ)⁻¹ ^ 53 * (((2 : ℤ) : ℝ) + 5 + 3) ≤ _
  norm_num

/-- The same for a cylinder. -/
example : ∃ m, cylinderBuild true (2 ^ 64) 64 rot64 (some ⟨axis64, fl64 2⟩) 20 = .ok (some m) ∧ ClosedMesh m ∧ m.vertices.length = 42 := by
  obtain ⟨m, h1, h2, h3, _⟩ := C96_cylinder lib64 true (2 ^ 64) 64 rot64 ⟨axis64, fl64 2⟩ 20 (by norm_num) (by norm_num)
    (by show (0 : ℝ) < ((2 : ℤ) : ℝ); norm_num) (A := 3) (K := 2) axis64_source axis64_target axis64_dist (by norm_num) axis64_le
    (by norm_num) rotQ_orthogonal rotQ_axis (rot64_err _ _)
    (by show (16 * 2 + 512) * ((20 : ℕ) : ℝ) * (2 : ℝ)⁻¹ ^ 53 * (((2 : ℤ) : ℝ) + 5 + 3) ≤ ((2 : ℤ) : ℝ); norm_num)
    (by show (16 * 2 + 512) * (2 : ℝ)⁻¹ ^ 53 * (((2 : ℤ) : ℝ) + 5 + 3) ≤ 5; norm_num)
    (small64 (by norm_num))
  exact ⟨m, h1, h2, h3⟩
end Examples
end Verif
