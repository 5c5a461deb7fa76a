import Verif.Proofs.FloatError
import Verif.Proofs.SphereSep
import Verif.Props.FloatMesh
import Verif.Proofs.Distance
import Mathlib.Analysis.Real.Pi.Bounds

set_option linter.unusedSectionVars false

/-
C94: spheres in floating point.
-/
namespace Verif
open Spec Matrix Real

section
variable {F : FloatFormat} [HasTrig (Fl F)]

/-- The points computed for a sphere, before the origin is added. -/
noncomputable def flSphPt (r : Fl F) (p n : Nat) : SphV → Vec (Fl F) 3
  | .top => vec3 0 0 r
  | .bot => vec3 0 0 (-r)
  | .g i j =>
    vec3 (r * HasTrig.sin (((i + 1 : ℕ) : Fl F) * (HasTrig.pi / (p : Fl F))) * HasTrig.cos ((j : Fl F) * (2 * HasTrig.pi / (n : Fl F))))
      (r * HasTrig.sin (((i + 1 : ℕ) : Fl F) * (HasTrig.pi / (p : Fl F))) * HasTrig.sin ((j : Fl F) * (2 * HasTrig.pi / (n : Fl F))))
      (r * HasTrig.cos (((i + 1 : ℕ) : Fl F) * (HasTrig.pi / (p : Fl F))))

theorem calcSpherePoints_fl [BEq (Vec (Fl F) 3)] (s : Sphere (Fl F)) (p n : Nat) :
    calcSpherePoints s p n = (sphVerts p n).map fun v =>
      if s.origin != vec3 0 0 0 then vadd (flSphPt s.radius p n v) s.origin else flSphPt s.radius p n v := by
  have hbase : ((List.range' 1 (p - 1)).flatMap fun (i : Nat) =>
      (List.range n).map fun (j : Nat) =>
        vec3 (s.radius * HasTrig.sin ((i : Fl F) * (HasTrig.pi / (p : Fl F))) * HasTrig.cos ((j : Fl F) * (2 * HasTrig.pi / (n : Fl F))))
          (s.radius * HasTrig.sin ((i : Fl F) * (HasTrig.pi / (p : Fl F))) * HasTrig.sin ((j : Fl F) * (2 * HasTrig.pi / (n : Fl F))))
          (s.radius * HasTrig.cos ((i : Fl F) * (HasTrig.pi / (p : Fl F))))) ++ [vec3 0 0 s.radius, vec3 0 0 (-s.radius)]
      = (sphVerts p n).map (flSphPt s.radius p n) := by
    rw [sphVerts, List.map_append, List.map_flatMap]
    congr 1
    rw [List.range'_eq_map_range, List.flatMap_map]
    apply List.flatMap_congr
    intro i _
    rw [List.map_map]
    apply List.map_congr_left
    intro j _
    simp only [Function.comp, flSphPt]
    rw [Nat.add_comm 1 i]
  unfold calcSpherePoints
  dsimp only
  rw [hbase]
  split
  · rw [List.map_map]; rfl
  · rfl

/-- The doubled constant pi. -/
theorem two_pi_err (hl : Fl.LibAccurate F) (hu : F.unit ≤ 1 / 576) (ht : F.tiny ≤ F.unit ^ 2) :
    |((2 : Fl F) * HasTrig.pi).1 - 2 * π| ≤ 15 * F.unit := by
  have hu0 := F.unit_pos
  rw [Fl.val_mul, F.two_exact]
  have hpi := hl.pi
  have h1 : |2 * (HasTrig.pi : Fl F).1 - 2 * π| ≤ 8 * F.unit := by
    rw [← mul_sub, abs_mul, abs_two]
    unfold FloatFormat.unit
    linarith
  have h2 : |2 * π| ≤ 63 / 10 := by
    rw [abs_of_pos Real.two_pi_pos]
    linarith [Real.pi_lt_d2]
  refine (F.err_of h1 h2).trans ?_
  have h3 : F.unit * F.unit ≤ 1 / 576 * F.unit := mul_le_mul_of_nonneg_right hu hu0.le
  rw [pow_two] at ht
  linarith

/-- The errors of the points of a sphere around the origin. -/
theorem flSphPt_err (hl : Fl.LibAccurate F) (hu : F.unit ≤ 1 / 576) (ht : F.tiny ≤ F.unit ^ 2) {r : Fl F} (hr : 0 ≤ r.1)
    (htr : F.tiny ≤ F.unit * F.unit * r.1) {p n : Nat} (hp : (p : ℝ) * F.unit ≤ 1 / 72) (hn : (n : ℝ) * F.unit ≤ 1 / 72)
    {v : SphV} (hv : SphOk p n v) (c : Fin 3) : |(flSphPt r p n v c).1 - sphPt r.1 p n v c| ≤ 50 * F.unit * r.1 := by
  have hu0 := F.unit_pos
  have hur : 0 ≤ F.unit * r.1 := mul_nonneg hu0.le hr
  have hzero : |(0 : ℝ) - 0| ≤ 50 * F.unit * r.1 := by rw [sub_self, abs_zero]; linarith
  have hself : ∀ x : ℝ, |x - x| ≤ 50 * F.unit * r.1 := fun x => by rw [sub_self, abs_zero]; linarith
  cases v with
  | top => fin_cases c <;> simp only [flSphPt, sphPt, vec3_0, vec3_1, vec3_2, Fl.val_zero, Fin.zero_eta, Fin.mk_one, Fin.reduceFinMk] <;> exact hself _
  | bot => fin_cases c <;> simp only [flSphPt, sphPt, vec3_0, vec3_1, vec3_2, Fl.val_zero, Fl.val_neg, Fin.zero_eta, Fin.mk_one, Fin.reduceFinMk] <;> exact hself _
  | g i j =>
    have hi := hv.1
    have hj := hv.2
    have hpi0 := Real.pi_pos
    have hpi := Real.pi_lt_d2
    have A1 : |(((i + 1 : ℕ) : Fl F) * (HasTrig.pi / (p : Fl F))).1 - polar p i| ≤ 12 * F.unit := by
      have := angle_err (c := (HasTrig.pi : Fl F)) Real.pi_pos.le (by linarith) (by norm_num : (4 : ℝ) ≤ 20) hl.pi hu ht hp
        (show i + 1 ≤ p by omega) (by omega)
      refine this.trans (mul_le_mul_of_nonneg_right (by linarith) hu0.le)
    have A2 : |((j : Fl F) * (2 * HasTrig.pi / (n : Fl F))).1 - azimuth n 1 j| ≤ 29 * F.unit := by
      have := angle_err (c := (2 * HasTrig.pi : Fl F)) Real.two_pi_pos.le (by linarith) (by norm_num : (15 : ℝ) ≤ 20)
        (two_pi_err hl hu ht) hu ht hn (show j ≤ n by omega) (by omega)
      unfold azimuth
      rw [one_mul]
      refine this.trans (mul_le_mul_of_nonneg_right (by linarith) hu0.le)
    have B1 := trig_err hl A1 (by
      obtain ⟨h1, h2⟩ := polar_mem hi
      rw [abs_of_pos h1]; linarith)
    have B2 := trig_err hl A2 (by
      have h0 : 0 ≤ azimuth n 1 j := by unfold azimuth; positivity
      have h1 : azimuth n 1 j ≤ 2 * π := by
        unfold azimuth
        have hn0 : (0 : ℝ) < n := by exact_mod_cast (by omega : 0 < n)
        have : (j : ℝ) ≤ n := by exact_mod_cast hj.le
        calc (j : ℝ) * (1 * (2 * π / n)) ≤ n * (1 * (2 * π / n)) := mul_le_mul_of_nonneg_right this (by positivity)
          _ = 2 * π := by field_simp
      rw [abs_of_nonneg h0]; linarith)
    have hrr : |r.1 - r.1| ≤ 0 := by rw [sub_self, abs_zero]
    have hra : |r.1| ≤ r.1 := (abs_of_nonneg hr).le
    have huu : F.unit * (F.unit * r.1) ≤ 1 / 576 * (F.unit * r.1) := mul_le_mul_of_nonneg_right hu hur
    have huuu : F.unit * (F.unit * (F.unit * r.1)) ≤ 1 / 576 * (1 / 576 * (F.unit * r.1)) :=
      mul_le_mul hu huu (by positivity) (by norm_num)
    have C1 : ∀ {b : Fl F} {y : ℝ}, |b.1 - y| ≤ (12 + 2) * F.unit → |y| ≤ 1 → |(r * b).1 - r.1 * y| ≤ 16 * F.unit * r.1 := by
      intro b y hb hy
      refine (mul_err hrr hb hra hy).trans ?_
      have e : (0 * 1 + r.1 * ((12 + 2) * F.unit) + 0 * ((12 + 2) * F.unit)) +
          F.unit * (r.1 * 1 + (0 * 1 + r.1 * ((12 + 2) * F.unit) + 0 * ((12 + 2) * F.unit))) + F.tiny
          = 15 * (F.unit * r.1) + 14 * (F.unit * (F.unit * r.1)) + F.tiny := by ring
      rw [e]
      linarith
    have D1 := C1 B1.1 (Real.abs_cos_le_one _)
    have D2 := C1 B1.2 (Real.abs_sin_le_one _)
    have hX : |r.1 * sin (polar p i)| ≤ r.1 := by
      rw [abs_mul]
      exact (mul_le_mul hra (Real.abs_sin_le_one _) (abs_nonneg _) hr).trans (by rw [mul_one])
    have E : ∀ {b : Fl F} {y : ℝ}, |b.1 - y| ≤ (29 + 2) * F.unit → |y| ≤ 1 →
        |(r * HasTrig.sin (((i + 1 : ℕ) : Fl F) * (HasTrig.pi / (p : Fl F))) * b).1 - r.1 * sin (polar p i) * y| ≤ 50 * F.unit * r.1 := by
      intro b y hb hy
      refine (mul_err D2 hb hX hy).trans ?_
      have e : (16 * F.unit * r.1 * 1 + r.1 * ((29 + 2) * F.unit) + 16 * F.unit * r.1 * ((29 + 2) * F.unit)) +
          F.unit * (r.1 * 1 + (16 * F.unit * r.1 * 1 + r.1 * ((29 + 2) * F.unit) + 16 * F.unit * r.1 * ((29 + 2) * F.unit))) + F.tiny
          = 48 * (F.unit * r.1) + 543 * (F.unit * (F.unit * r.1)) + 496 * (F.unit * (F.unit * (F.unit * r.1))) + F.tiny := by ring
      rw [e]
      linarith
    fin_cases c
    · exact E B2.1 (Real.abs_cos_le_one _)
    · exact E B2.2 (Real.abs_sin_le_one _)
    · exact D1.trans (by linarith)

variable [BEq (Vec (Fl F) 3)] [LawfulBEq (Vec (Fl F) 3)]

/-- Adding the origin. -/
theorem flSph_err (hl : Fl.LibAccurate F) (hu : F.unit ≤ 1 / 576) (ht : F.tiny ≤ F.unit ^ 2) {s : Sphere (Fl F)} (hr : 0 ≤ s.radius.1)
    (htr : F.tiny ≤ F.unit * F.unit * s.radius.1) {A : ℝ} (hA : ∀ i, |(s.origin i).1| ≤ A) {p n : Nat}
    (hp : (p : ℝ) * F.unit ≤ 1 / 72) (hn : (n : ℝ) * F.unit ≤ 1 / 72) {v : SphV} (hv : SphOk p n v) (c : Fin 3) :
    |((if s.origin != vec3 0 0 0 then vadd (flSphPt s.radius p n v) s.origin else flSphPt s.radius p n v) c).1
      - (sphPt s.radius.1 p n v c + (s.origin c).1)| ≤ 52 * F.unit * (s.radius.1 + A) := by
  have hu0 := F.unit_pos
  have hA0 : 0 ≤ A := (abs_nonneg _).trans (hA 0)
  have huA : 0 ≤ F.unit * A := mul_nonneg hu0.le hA0
  have hur : 0 ≤ F.unit * s.radius.1 := mul_nonneg hu0.le hr
  have huu : F.unit * (F.unit * s.radius.1) ≤ 1 / 576 * (F.unit * s.radius.1) := mul_le_mul_of_nonneg_right hu hur
  have key := flSphPt_err hl hu ht hr htr hp hn hv c
  split
  · have hb : |sphPt s.radius.1 p n v c| ≤ s.radius.1 := by
      have h1 := sphPt_dp s.radius.1 p n v
      rw [dp3] at h1
      apply abs_le_of_sq_le_sq _ hr
      fin_cases c
      · show sphPt s.radius.1 p n v 0 ^ 2 ≤ _
        nlinarith [mul_self_nonneg (sphPt s.radius.1 p n v 1), mul_self_nonneg (sphPt s.radius.1 p n v 2)]
      · show sphPt s.radius.1 p n v 1 ^ 2 ≤ _
        nlinarith [mul_self_nonneg (sphPt s.radius.1 p n v 0), mul_self_nonneg (sphPt s.radius.1 p n v 2)]
      · show sphPt s.radius.1 p n v 2 ^ 2 ≤ _
        nlinarith [mul_self_nonneg (sphPt s.radius.1 p n v 1), mul_self_nonneg (sphPt s.radius.1 p n v 0)]
    have hX : |sphPt s.radius.1 p n v c + (s.origin c).1| ≤ s.radius.1 + A :=
      (abs_add_le _ _).trans (add_le_add hb (hA c))
    refine (add_err key hX).trans ?_
    have e : 50 * F.unit * s.radius.1 + F.unit * (s.radius.1 + A + 50 * F.unit * s.radius.1) + F.tiny
        = 51 * (F.unit * s.radius.1) + F.unit * A + 50 * (F.unit * (F.unit * s.radius.1)) + F.tiny := by ring
    rw [e]
    linarith
  · next h =>
    have h : s.origin = vec3 0 0 0 := by simpa using h
    have h0 : (s.origin c).1 = 0 := by rw [h]; fin_cases c <;> rfl
    rw [h0, add_zero]
    refine key.trans ?_
    linarith

/-- What the conditions on the format and the counts amount to. -/
theorem sphere_consts {r : ℝ} {p : Nat} (hp : 1 ≤ p) (hpp : 576 * p ≤ 2 ^ F.prec)
    (hsmall : ∀ k, F.emin = some k → k ≤ -2 * (F.prec : ℤ) ∧ (2 : ℝ) ^ k ≤ (2 : ℝ)⁻¹ ^ (2 * F.prec) * r) :
    F.unit ≤ 1 / 576 ∧ (p : ℝ) * F.unit ≤ 1 / 72 ∧ F.tiny ≤ F.unit ^ 2 ∧ (0 ≤ r → F.tiny ≤ F.unit * F.unit * r) := by
  have hp1 : (1 : ℝ) ≤ p := by exact_mod_cast hp
  have h1 : (576 : ℝ) * p * F.unit ≤ 1 := by
    unfold FloatFormat.unit
    rw [inv_pow, ← div_eq_mul_inv, div_le_one (by positivity)]
    exact_mod_cast hpp
  have hu0 := F.unit_pos
  have h2 : F.unit ≤ p * F.unit := le_mul_of_one_le_left hu0.le hp1
  have e2 : (2 : ℝ)⁻¹ ^ (2 * F.prec) = F.unit * F.unit := by unfold FloatFormat.unit; rw [two_mul, pow_add]
  refine ⟨by linarith, by linarith, ?_, ?_⟩
  · unfold FloatFormat.tiny
    split
    · positivity
    · next k hk =>
      have := (hsmall k hk).1
      rw [pow_two, ← e2, inv_pow, ← zpow_natCast, ← zpow_neg]
      exact zpow_le_zpow_right₀ (by norm_num) (by push_cast; linarith)
  · intro hr
    unfold FloatFormat.tiny
    split
    · positivity
    · next k hk => rw [← e2]; exact (hsmall k hk).2

/-- **C94** The points computed for a sphere are accurate.  Let the sine, cosine and pi of the mathematical library be accurate to two
units in the last place, the counts at most `2^prec / 576`, and no result so small that its rounding
error exceeds the unit roundoff squared (relative to one and to the radius).  Then each coordinate of the point of ring `i` and azimuth `j`, and of the two poles, is off by at most
`52 · 2^-prec · (r + A)`, where `A` bounds the coordinates of the centre. -/
theorem C94_accuracy (hl : Fl.LibAccurate F) (s : Sphere (Fl F)) (p n : Nat) (hp : 1 ≤ p) (hn : 1 ≤ n) (hpp : 576 * p ≤ 2 ^ F.prec)
    (hnp : 576 * n ≤ 2 ^ F.prec) (hr : 0 ≤ s.radius.1) {A : ℝ} (hA : ∀ c, |(s.origin c).1| ≤ A)
    (hsmall : ∀ k, F.emin = some k → k ≤ -2 * (F.prec : ℤ) ∧ (2 : ℝ) ^ k ≤ (2 : ℝ)⁻¹ ^ (2 * F.prec) * s.radius.1) :
    (∀ i j, 1 ≤ i → i < p → j < n → ∃ q, (calcSpherePoints s p n)[(i - 1) * n + j]? = some q ∧
      ∀ c, |(q c).1 - ((s.origin c).1 + s.radius.1 * (![sin (i * π / p) * cos (j * (2 * π) / n), sin (i * π / p) * sin (j * (2 * π) / n),
        cos (i * π / p)] : Fin 3 → ℝ) c)| ≤ 52 * (2 : ℝ)⁻¹ ^ F.prec * (s.radius.1 + A)) ∧
    (∃ q, (calcSpherePoints s p n)[(p - 1) * n]? = some q ∧
      ∀ c, |(q c).1 - ((s.origin c).1 + (![0, 0, s.radius.1] : Fin 3 → ℝ) c)| ≤ 52 * (2 : ℝ)⁻¹ ^ F.prec * (s.radius.1 + A)) ∧
    (∃ q, (calcSpherePoints s p n)[(p - 1) * n + 1]? = some q ∧
      ∀ c, |(q c).1 - ((s.origin c).1 + (![0, 0, -s.radius.1] : Fin 3 → ℝ) c)| ≤ 52 * (2 : ℝ)⁻¹ ^ F.prec * (s.radius.1 + A)) ∧
    (calcSpherePoints s p n).length = (p - 1) * n + 2 := by
  obtain ⟨hu, hp', ht, htr⟩ := sphere_consts (F := F) (r := s.radius.1) hp hpp hsmall
  obtain ⟨_, hn', _, _⟩ := sphere_consts (F := F) (r := s.radius.1) hn hnp hsmall
  have key : ∀ v : SphV, SphOk p n v → ∃ q, (calcSpherePoints s p n)[sphNum p n v]? = some q ∧
      ∀ c, |(q c).1 - (sphPt s.radius.1 p n v c + (s.origin c).1)| ≤ 52 * F.unit * (s.radius.1 + A) := by
    intro v hv
    rw [calcSpherePoints_fl, List.getElem?_map, sphVerts_getElem? hv]
    exact ⟨_, rfl, flSph_err hl hu ht hr (htr hr) hA hp' hn' hv⟩
  refine ⟨?_, ?_, ?_, spherePoints_length_gen s p n⟩
  · intro i j hi hip hj
    obtain ⟨q, hq, he⟩ := key (.g (i - 1) j) ⟨by omega, hj⟩
    refine ⟨q, hq, fun c => ?_⟩
    have e : s.radius.1 * (![sin (i * π / p) * cos (j * (2 * π) / n), sin (i * π / p) * sin (j * (2 * π) / n),
        cos (i * π / p)] : Fin 3 → ℝ) c = sphPt s.radius.1 p n (.g (i - 1) j) c := by
      have e1 : polar p (i - 1) = i * π / p := by unfold polar; rw [Nat.sub_add_cancel hi]; ring
      have e2 : azimuth n 1 j = j * (2 * π) / n := by unfold azimuth; ring
      rw [sphPt, e1, e2]
      fin_cases c
      · show _ * (_ * _) = _ * _ * _; ring
      · show _ * (_ * _) = _ * _ * _; ring
      · rfl
    rw [e, add_comm]
    exact he c
  · obtain ⟨q, hq, he⟩ := key .top trivial
    refine ⟨q, hq, fun c => ?_⟩
    rw [add_comm]
    have e : (![0, 0, s.radius.1] : Fin 3 → ℝ) c = sphPt s.radius.1 p n .top c := by fin_cases c <;> rfl
    rw [e]
    exact he c
  · obtain ⟨q, hq, he⟩ := key .bot trivial
    refine ⟨q, hq, fun c => ?_⟩
    rw [add_comm]
    have e : (![0, 0, -s.radius.1] : Fin 3 → ℝ) c = sphPt s.radius.1 p n .bot c := by fin_cases c <;> rfl
    rw [e]
    exact he c

/-- The unit roundoff is small when `64 N² u (r + A) ≤ r`. -/
theorem sphere_count {r A N : ℝ} {p : ℕ} (hr : 0 < r) (hA : 0 ≤ A) (hp : (p : ℝ) ≤ N) (hN3 : 3 ≤ N)
    (hbig : 64 * N ^ 2 * (2 : ℝ)⁻¹ ^ F.prec * (r + A) ≤ r) : 64 * 3 * (p : ℝ) * F.unit ≤ 1 := by
  have hu0 := F.unit_pos
  have h1 : 64 * N ^ 2 * F.unit * r ≤ 1 * r := by
    rw [one_mul]
    refine le_trans ?_ hbig
    exact mul_le_mul_of_nonneg_left (by linarith) (by positivity)
  have h2 := le_of_mul_le_mul_right h1 hr
  refine le_trans ?_ h2
  refine mul_le_mul_of_nonneg_right ?_ hu0.le
  nlinarith

/-- Underflow: what the second condition of C94 amounts to. -/
theorem tiny_of_resolved {r : ℝ}
    (hsmall : ∀ k, F.emin = some k → k ≤ -2 * (F.prec : ℤ) ∧ (2 : ℝ) ^ ((k + 1) / 2) ≤ (2 : ℝ)⁻¹ ^ F.prec * r) :
    F.tiny ≤ F.unit ^ 2 ∧ (0 ≤ r → F.tiny ≤ F.unit * F.unit * r) := by
  have hu0 := F.unit_pos
  unfold FloatFormat.tiny
  split
  · exact ⟨by positivity, fun _ => by positivity⟩
  · next k hk =>
    obtain ⟨h1, h2⟩ := hsmall k hk
    have hs : (2 : ℝ) ^ ((k + 1) / 2) ≤ F.unit := by
      unfold FloatFormat.unit
      rw [inv_pow, ← zpow_natCast, ← zpow_neg]
      exact zpow_le_zpow_right₀ (by norm_num) (by omega)
    have hk2 : (2 : ℝ) ^ k ≤ 2 ^ ((k + 1) / 2) * 2 ^ ((k + 1) / 2) := by
      rw [← zpow_add₀ (by norm_num)]
      exact zpow_le_zpow_right₀ (by norm_num) (by omega)
    have h0 := two_zpow_pos ((k + 1) / 2)
    refine ⟨?_, fun _ => ?_⟩
    · rw [pow_two]
      exact hk2.trans (mul_le_mul hs hs h0.le hu0.le)
    · rw [mul_assoc]
      exact hk2.trans (mul_le_mul hs h2 h0.le hu0.le)

variable [BEq (HMat (Fl F))] [LawfulBEq (HMat (Fl F))]

/-- **C94** The mesh of a sphere is closed in floating point, and it lies on the sphere.  With `N` the larger count and
`64 N² · 2^-prec · (r + A) ≤ r` (for `double` and a centre not farther away than `1000 r` this allows counts up to about 370,000, for `float` and a
centre at the origin up to 512) the computed points are pairwise different and far
enough apart for the vertex search, so building succeeds, in debug builds too, the mesh is closed and consistently oriented and has
the numbers of vertices, edges and triangles of C58; every vertex is at most `91 · 2^-prec · (r + A)` off the sphere. -/
theorem C94_closed (hl : Fl.LibAccurate F) (dbg : Bool) (M w : Nat) (b : SphereBuilder (Fl F)) (hp : 2 ≤ b.polarCount)
    (hn : 3 ≤ b.azimuthCount) (hM : 6 * b.azimuthCount * (b.polarCount - 1) < M) (hr : 0 < b.theSphere.radius.1) {A N : ℝ}
    (hA : ∀ c, |(b.theSphere.origin c).1| ≤ A) (hpN : (b.polarCount : ℝ) ≤ N) (hnN : (b.azimuthCount : ℝ) ≤ N)
    (hbig : 64 * N ^ 2 * (2 : ℝ)⁻¹ ^ F.prec * (b.theSphere.radius.1 + A) ≤ b.theSphere.radius.1)
    (hsmall : ∀ k, F.emin = some k → k ≤ -2 * (F.prec : ℤ) ∧ (2 : ℝ) ^ ((k + 1) / 2) ≤ (2 : ℝ)⁻¹ ^ F.prec * b.theSphere.radius.1) :
    ∃ m b', b.build dbg M w = .ok (m, b') ∧ ClosedMesh m ∧
      m.vertices.length = (b.polarCount - 1) * b.azimuthCount + 2 ∧
      m.facets.length = 2 * b.azimuthCount * (b.polarCount - 1) ∧
      (∀ MU, (b.polarCount - 1) * b.azimuthCount + 2 ≤ MU →
        ∃ l, calcLineIndices dbg MU m = .ok l ∧ l.length = 2 * (3 * b.azimuthCount * (b.polarCount - 1))) ∧
      ∀ v ∈ m.points, |Spec.dist (fun c => (v c).1) (fun c => (b.theSphere.origin c).1) - b.theSphere.radius.1|
        ≤ 91 * (2 : ℝ)⁻¹ ^ F.prec * (b.theSphere.radius.1 + A) := by
  set s := b.theSphere with hs
  set p := b.polarCount with hp'
  set n := b.azimuthCount with hn'
  have hu0 := F.unit_pos
  have hA0 : 0 ≤ A := (abs_nonneg _).trans (hA 0)
  have hN3 : (3 : ℝ) ≤ N := le_trans (by exact_mod_cast hn) hnN
  have c1 := sphere_count hr hA0 hpN hN3 hbig
  have c2 := sphere_count hr hA0 hnN hN3 hbig
  obtain ⟨ht, htr⟩ := tiny_of_resolved hsmall
  have htr := htr hr.le
  have hu : F.unit ≤ 1 / 576 := by
    have : (3 : ℝ) * F.unit ≤ n * F.unit := mul_le_mul_of_nonneg_right (by exact_mod_cast hn) hu0.le
    linarith
  have hpu : (p : ℝ) * F.unit ≤ 1 / 72 := by linarith
  have hnu : (n : ℝ) * F.unit ≤ 1 / 72 := by linarith
  have hpts := calcSpherePoints_fl s p n
  set f : SphV → Vec (Fl F) 3 := fun v =>
    if s.origin != vec3 0 0 0 then vadd (flSphPt s.radius p n v) s.origin else flSphPt s.radius p n v with hf
  have herr : ∀ v, SphOk p n v → ∀ c, |(f v c).1 - (sphPt s.radius.1 p n v c + (s.origin c).1)| ≤ 52 * F.unit * (s.radius.1 + A) :=
    fun v hv c => flSph_err hl hu ht hr.le htr hA hpu hnu hv c
  have hbig' : 128 * F.unit * (s.radius.1 + A) ≤ 2 * s.radius.1 / N ^ 2 := by
    rw [le_div_iff₀ (by positivity)]
    unfold FloatFormat.unit
    linarith
  have hsep : ∀ a c, SphOk p n a → SphOk p n c → a ≠ c → ∃ i, F.unit * s.radius.1 ≤ |(f a i).1 - (f c i).1| := by
    intro a c ha hc hac
    obtain ⟨i, hi⟩ := sphPt_sep hr hpN hnN hp ha hc hac
    refine ⟨i, ?_⟩
    have e1 := herr a ha i
    have e2 := herr c hc i
    have h3 : |sphPt s.radius.1 p n a i - sphPt s.radius.1 p n c i| ≤ |(f a i).1 - (f c i).1| + 52 * F.unit * (s.radius.1 + A) +
        52 * F.unit * (s.radius.1 + A) := by
      have e : sphPt s.radius.1 p n a i - sphPt s.radius.1 p n c i = ((f a i).1 - (f c i).1)
          + -((f a i).1 - (sphPt s.radius.1 p n a i + (s.origin i).1)) + ((f c i).1 - (sphPt s.radius.1 p n c i + (s.origin i).1)) := by ring
      rw [e]
      refine (abs_add_le _ _).trans (add_le_add ((abs_add_le _ _).trans (add_le_add le_rfl ?_)) e2)
      rwa [abs_neg]
    have h4 : 0 ≤ F.unit * A := mul_nonneg hu0.le hA0
    have h5 : 0 ≤ F.unit * s.radius.1 := mul_nonneg hu0.le hr.le
    linarith
  have hur : 0 < F.unit * s.radius.1 := mul_pos hu0 hr
  obtain ⟨m, b', hm, hnd, hmem, hfac, _, hcl⟩ := C92_sphere dbg M w b hp hn hM (by
    rw [← hs, ← hp', ← hn', hpts]
    intro x hx y hy hxy
    obtain ⟨a, ha, rfl⟩ := List.mem_map.1 hx
    obtain ⟨c, hc, rfl⟩ := List.mem_map.1 hy
    obtain ⟨i, hi⟩ := hsep a c (sphVerts_ok ha) (sphVerts_ok hc) fun e => hxy (by rw [e])
    refine ⟨i, ?_, fun k hk => ((hsmall k hk).2.trans hi)⟩
    intro e
    rw [e, sub_self, abs_zero] at hi
    linarith)
  have hnod : (calcSpherePoints s p n).Nodup := by
    rw [hpts, List.nodup_map_iff_inj_on (sphVerts_nodup p n)]
    intro x hx y hy e
    by_contra hxy
    obtain ⟨i, hi⟩ := hsep x y (sphVerts_ok hx) (sphVerts_ok hy) hxy
    rw [e, sub_self, abs_zero] at hi
    linarith
  obtain ⟨h1, h2, h3⟩ := hcl hnod
  refine ⟨m, b', hm, h1, h2, hfac, h3, ?_⟩
  intro v hv
  have hv := (hmem v).1 hv
  rw [← hs, ← hp', ← hn', hpts] at hv
  obtain ⟨a, ha, rfl⟩ := List.mem_map.1 hv
  have he := herr a (sphVerts_ok ha)
  set o : Vec ℝ 3 := fun c => (s.origin c).1 with ho
  set q : Vec ℝ 3 := fun c => (f a c).1 with hq
  set x : Vec ℝ 3 := sphPt s.radius.1 p n a + o with hx
  have hxo : Spec.dist x o = s.radius.1 := by
    rw [spec_dist_eq, hx, add_sub_cancel_right, sphPt_dp, Real.sqrt_sq hr.le]
  have hE : 0 ≤ F.unit * (s.radius.1 + A) := by positivity
  have hqx : Spec.dist q x ≤ 91 * F.unit * (s.radius.1 + A) := by
    unfold Spec.dist
    rw [Fin.sum_univ_three]
    apply Real.sqrt_le_iff.2 ⟨by linarith, ?_⟩
    have h : ∀ c, (q c - x c) ^ 2 ≤ (52 * F.unit * (s.radius.1 + A)) ^ 2 := fun c => by
      rw [← sq_abs]; exact pow_le_pow_left₀ (abs_nonneg _) (he c) 2
    have h0 := h 0
    have h1 := h 1
    have h2 := h 2
    have h3 : 0 ≤ (F.unit * (s.radius.1 + A)) ^ 2 := sq_nonneg _
    have e1 : (52 * F.unit * (s.radius.1 + A)) ^ 2 = 2704 * (F.unit * (s.radius.1 + A)) ^ 2 := by ring
    have e2 : (91 * F.unit * (s.radius.1 + A)) ^ 2 = 8281 * (F.unit * (s.radius.1 + A)) ^ 2 := by ring
    rw [e1] at h0 h1 h2
    rw [e2]
    linarith
  have t1 := dist_triangle' q x o
  have t2 := dist_triangle' x q o
  rw [dist_comm' x q] at t2
  rw [hxo] at t1 t2
  show |Spec.dist q o - s.radius.1| ≤ 91 * F.unit * (s.radius.1 + A)
  rw [abs_le]
  constructor <;> linarith
end

/-! ### Concrete cases -/
section Examples
open Classical
attribute [local instance] roundedTrig

/-- A correctly rounding library is accurate. -/
theorem roundedTrig_accurate {F : FloatFormat} (h : F.tiny ≤ F.unit / 2) : Fl.LibAccurate F := by
  have hu := F.unit_pos
  have key : ∀ x c : ℝ, |x| ≤ c → |F.rnd x - x| ≤ (c + 1 / 2) * F.unit := by
    intro x c hx
    have h1 := F.err x
    have h2 := mul_le_mul_of_nonneg_left hx hu.le
    linarith
  refine ⟨fun x _ => ?_, fun x _ => ?_, ?_⟩
  · refine (key _ _ (Real.abs_cos_le_one x.1)).trans ?_
    show _ ≤ 2 * F.unit
    linarith
  · refine (key _ _ (Real.abs_sin_le_one x.1)).trans ?_
    show _ ≤ 2 * F.unit
    linarith
  · refine (key π (7 / 2) ?_).trans ?_
    · rw [abs_of_pos Real.pi_pos]; linarith [Real.pi_lt_d2]
    · show _ ≤ 4 * F.unit
      linarith

theorem lib64 : Fl.LibAccurate binary64 := by
  apply roundedTrig_accurate
  show (2 : ℝ) ^ (-1074 : ℤ) ≤ (2 : ℝ)⁻¹ ^ 53 / 2
  have : (2 : ℝ)⁻¹ ^ 53 / 2 = 2 ^ (-54 : ℤ) := by norm_num
  rw [this]
  exact zpow_le_zpow_right₀ (by norm_num) (by norm_num)

theorem small64 {r : ℝ} (h : 1 ≤ r) : ∀ k, binary64.emin = some k → k ≤ -2 * (binary64.prec : ℤ) ∧
    (2 : ℝ) ^ ((k + 1) / 2) ≤ (2 : ℝ)⁻¹ ^ binary64.prec * r := by
  intro k hk
  obtain rfl : k = -1074 := (Option.some.inj hk).symm
  refine ⟨by show (-1074 : ℤ) ≤ -2 * (53 : ℕ); norm_num, ?_⟩
  have h1 : (2 : ℝ) ^ (((-1074 : ℤ) + 1) / 2) ≤ (2 : ℝ)⁻¹ ^ 53 := by
    rw [inv_pow, ← zpow_natCast, ← zpow_neg]
    exact zpow_le_zpow_right₀ (by norm_num) (by norm_num)
  exact h1.trans (le_mul_of_one_le_right (by positivity) h)

/-- A sphere of radius 5 around (1, 2, 3) in `double`, with the default counts. -/
example : ∃ m b', SphereBuilder.build true (2 ^ 64) 64
    (⟨10, 20, vec3 (fl64 1) (fl64 2) (fl64 3), fl64 5, none⟩ : SphereBuilder (Fl binary64)) = .ok (m, b') ∧
    ClosedMesh m ∧ m.vertices.length = 182 := by
  obtain ⟨m, b', h1, h2, h3, _⟩ := C94_closed lib64 true (2 ^ 64) 64
    (⟨10, 20, vec3 (fl64 1) (fl64 2) (fl64 3), fl64 5, none⟩ : SphereBuilder (Fl binary64))
    (by norm_num) (by norm_num) (by norm_num) (by show (0 : ℝ) < ((5 : ℤ) : ℝ); norm_num) (A := 3) (N := 20) (by
      intro c
      fin_cases c
      · show |((1 : ℤ) : ℝ)| ≤ 3; norm_num
      · show |((2 : ℤ) : ℝ)| ≤ 3; norm_num
      · show |((3 : ℤ) : ℝ)| ≤ 3; norm_num)
    (by norm_num) (by norm_num)
    (by show 64 * (20 : ℝ) ^ 2 * (2 : ℝ)⁻¹ ^ 53 * (((5 : ℤ) : ℝ) + 3) ≤ ((5 : ℤ) : ℝ); norm_num)
    (small64 (by show (1 : ℝ) ≤ ((5 : ℤ) : ℝ); norm_num))
  exact ⟨m, b', h1, h2, h3⟩

/-- Its third ring, at azimuth 7. -/
example : ∃ q, (calcSpherePoints (⟨vec3 (fl64 1) (fl64 2) (fl64 3), fl64 5⟩ : Sphere (Fl binary64)) 10 20)[47]? = some q ∧
    |(q 2).1 - (3 + 5 * cos (3 * π / 10))| ≤ 1 / 10 ^ 13 := by
  obtain ⟨h, _⟩ := C94_accuracy lib64 (⟨vec3 (fl64 1) (fl64 2) (fl64 3), fl64 5⟩ : Sphere (Fl binary64)) 10 20
    (by norm_num) (by norm_num) (by show 576 * 10 ≤ 2 ^ 53; norm_num) (by show 576 * 20 ≤ 2 ^ 53; norm_num)
    (by show (0 : ℝ) ≤ ((5 : ℤ) : ℝ); norm_num) (A := 3) (by
      intro c
      fin_cases c
      · show |((1 : ℤ) : ℝ)| ≤ 3; norm_num
      · show |((2 : ℤ) : ℝ)| ≤ 3; norm_num
      · show |((3 : ℤ) : ℝ)| ≤ 3; norm_num) (by
      intro k hk
      obtain rfl : k = -1074 := (Option.some.inj hk).symm
      refine ⟨by show (-1074 : ℤ) ≤ -2 * (53 : ℕ); norm_num, ?_⟩
      have h1 : (2 : ℝ) ^ (-1074 : ℤ) ≤ (2 : ℝ)⁻¹ ^ (2 * 53) := by
        rw [inv_pow, ← zpow_natCast, ← zpow_neg]
        exact zpow_le_zpow_right₀ (by norm_num) (by norm_num)
      exact h1.trans (le_mul_of_one_le_right (by positivity) (by show (1 : ℝ) ≤ ((5 : ℤ) : ℝ); norm_num)))
  obtain ⟨q, hq, he⟩ := h 3 7 (by norm_num) (by norm_num) (by norm_num)
  refine ⟨q, hq, ?_⟩
  have h2 := he 2
  have e : (((3 : ℤ) : ℝ) + ((5 : ℤ) : ℝ) * cos ((3 : ℕ) * π / (10 : ℕ))) = 3 + 5 * cos (3 * π / 10) := by push_cast; rfl
  rw [← e]
  refine h2.trans ?_
  show 52 * (2 : ℝ)⁻¹ ^ 53 * (((5 : ℤ) : ℝ) + 3) ≤ 1 / 10 ^ 13
  norm_num
end Examples
end Verif
