import Verif.Props.FloatSegment

set_option linter.unusedSectionVars false

/-
The points of cones and cylinders in floating point: errors before and after placing, and how far the exact points are apart.
-/
namespace Verif
open Spec Matrix Real

/-! ### Exact points -/

/-- `dist` from below. -/
theorem le_dist_of_dp {D : ℕ} {a b : Vec ℝ D} {s : ℝ} (h : s ^ 2 ≤ (a - b) ⬝ᵥ (a - b)) : s ≤ Spec.dist a b := by
  rw [spec_dist_eq]
  exact Real.le_sqrt_of_sq_le h

theorem circle_pairwise (z : ℝ) {r s : ℝ} (hs0 : 0 ≤ s) {n : Nat} (hsn : s * n ≤ r) (dir : CircleDir) :
    (vec3 0 0 z :: discretizeCircle (vec3 0 0 z) r n dir).Pairwise fun a b => s ≤ Spec.dist a b := by
  rw [discretizeCircle_eq, List.pairwise_cons]
  constructor
  · intro p hp
    obtain ⟨i, hi, rfl⟩ := List.mem_map.1 hp
    have hn : (1 : ℝ) ≤ n := by
      have := List.mem_range.1 hi
      exact_mod_cast (by omega : 1 ≤ n)
    apply le_dist_of_dp
    rw [show vec3 0 0 z - (vec3 0 0 z + circlePt r n (dirSign dir) i) = -circlePt r n (dirSign dir) i by
      rw [sub_add_cancel_left], neg_dotProduct_neg, circlePt_dp]
    have h1 : s ≤ s * n := le_mul_of_one_le_right hs0 hn
    exact pow_le_pow_left₀ hs0 (h1.trans hsn) 2
  · rw [List.pairwise_map]
    refine List.Pairwise.imp_of_mem ?_ List.nodup_range
    intro i j hi hj hij
    have hi := List.mem_range.1 hi
    have hj := List.mem_range.1 hj
    have hn : (0 : ℝ) < n := by exact_mod_cast (by omega : 0 < n)
    apply le_dist_of_dp
    rw [add_sub_add_left_eq_sub, dp3]
    have hc := chord_ge (dirSign_cases dir) hi hj hij
    have e : (circlePt r n (dirSign dir) i - circlePt r n (dirSign dir) j) 0 * (circlePt r n (dirSign dir) i - circlePt r n (dirSign dir) j) 0
        + (circlePt r n (dirSign dir) i - circlePt r n (dirSign dir) j) 1 * (circlePt r n (dirSign dir) i - circlePt r n (dirSign dir) j) 1
        + (circlePt r n (dirSign dir) i - circlePt r n (dirSign dir) j) 2 * (circlePt r n (dirSign dir) i - circlePt r n (dirSign dir) j) 2
        = r ^ 2 * ((cos (azimuth n (dirSign dir) i) - cos (azimuth n (dirSign dir) j)) ^ 2
          + (sin (azimuth n (dirSign dir) i) - sin (azimuth n (dirSign dir) j)) ^ 2) := by
      simp only [Pi.sub_apply, circlePt, vec3_0, vec3_1, vec3_2]; ring
    rw [e]
    have h1 : s ^ 2 * n ^ 2 ≤ r ^ 2 := by
      rw [← mul_pow]; exact pow_le_pow_left₀ (by positivity) hsn 2
    calc s ^ 2 ≤ r ^ 2 * (16 / n ^ 2) := by
          rw [mul_div_assoc', le_div_iff₀ (by positivity)]
          nlinarith [sq_nonneg r]
      _ ≤ _ := mul_le_mul_of_nonneg_left hc (sq_nonneg r)

theorem height_dist {a b : Vec ℝ 3} {h : ℝ} (hab : |a 2 - b 2| = h) : h ≤ Spec.dist a b := by
  rw [← hab]
  exact coord_le_norm (fun i => a i - b i) 2

/-- The exact points of a cone are at least `s` apart. -/
theorem conePoints_pairwise {r h s : ℝ} (hs0 : 0 ≤ s) {n : Nat} (hsn : s * n ≤ r) (hsh : s ≤ h) :
    (conePoints r h n).Pairwise fun a b => s ≤ Spec.dist a b := by
  unfold conePoints
  rw [List.pairwise_append]
  refine ⟨circle_pairwise 0 hs0 hsn .ccw, List.pairwise_singleton _ _, ?_⟩
  intro a ha b hb
  obtain rfl := List.mem_singleton.1 hb
  have ha2 : a 2 = 0 := by
    rcases List.mem_cons.1 ha with rfl | ha
    · rfl
    · exact (mem_disc ha).2
  refine hsh.trans (height_dist ?_)
  rw [ha2, vec3_2, zero_sub, abs_neg, abs_of_nonneg (hs0.trans hsh)]

/-- The exact points of a cylinder are at least `s` apart. -/
theorem cylPoints_pairwise {r h s : ℝ} (hs0 : 0 ≤ s) {n : Nat} (hsn : s * n ≤ r) (hsh : s ≤ h) :
    (cylPoints r h n).Pairwise fun a b => s ≤ Spec.dist a b := by
  unfold cylPoints
  rw [List.pairwise_append]
  refine ⟨circle_pairwise 0 hs0 hsn .ccw, circle_pairwise h hs0 hsn .cw, ?_⟩
  intro a ha b hb
  have ha2 : a 2 = 0 := by
    rcases List.mem_cons.1 ha with rfl | ha
    · rfl
    · exact (mem_disc ha).2
  have hb2 : b 2 = h := by
    rcases List.mem_cons.1 hb with rfl | hb
    · rfl
    · exact (mem_disc hb).2
  refine hsh.trans (height_dist ?_)
  rw [ha2, hb2, zero_sub, abs_neg, abs_of_nonneg (hs0.trans hsh)]

theorem circle_bound (z : ℝ) {r : ℝ} (hr : 0 ≤ r) (hz : 0 ≤ z) {n : Nat} {dir : CircleDir} {p : Vec ℝ 3}
    (hp : p ∈ vec3 0 0 z :: discretizeCircle (vec3 0 0 z) r n dir) (c : Fin 3) : |p c| ≤ r + z := by
  rcases List.mem_cons.1 hp with rfl | hp
  · fin_cases c
    · show |(0 : ℝ)| ≤ _; rw [abs_zero]; positivity
    · show |(0 : ℝ)| ≤ _; rw [abs_zero]; positivity
    · show |z| ≤ _; rw [abs_of_nonneg hz]; linarith
  · rw [discretizeCircle_eq] at hp
    obtain ⟨i, _, rfl⟩ := List.mem_map.1 hp
    fin_cases c
    · show |0 + cos (azimuth n (dirSign dir) i) * r| ≤ _
      rw [zero_add, abs_mul, abs_of_nonneg hr]
      have := mul_le_mul_of_nonneg_right (Real.abs_cos_le_one (azimuth n (dirSign dir) i)) hr
      linarith
    · show |0 + sin (azimuth n (dirSign dir) i) * r| ≤ _
      rw [zero_add, abs_mul, abs_of_nonneg hr]
      have := mul_le_mul_of_nonneg_right (Real.abs_sin_le_one (azimuth n (dirSign dir) i)) hr
      linarith
    · show |z + 0| ≤ _; rw [add_zero, abs_of_nonneg hz]; linarith

/-! ### Errors of the computed points -/
section
variable {F : FloatFormat} [HasTrig (Fl F)]

/-- `p` is the exact point `e` up to `d` in each coordinate. -/
def Near (d : ℝ) (p : Vec (Fl F) 3) (e : Vec ℝ 3) : Prop := ∀ c, |(p c).1 - e c| ≤ d

theorem near_axis {d : ℝ} (hd : 0 ≤ d) {z : Fl F} {Z : ℝ} (hz : |z.1 - Z| ≤ d) : Near d (vec3 0 0 z) (vec3 0 0 Z) := by
  intro c
  fin_cases c
  · show |(0 : ℝ) - 0| ≤ d; rwa [sub_self, abs_zero]
  · show |(0 : ℝ) - 0| ≤ d; rwa [sub_self, abs_zero]
  · exact hz

/-- The points of a circle. -/
theorem circle_near (hl : Fl.LibAccurate F) (hu : F.unit ≤ 1 / 576) (ht : F.tiny ≤ F.unit ^ 2) {r : Fl F} {L : ℝ} (hr : 0 ≤ r.1)
    (hrL : r.1 ≤ L) (htL : F.tiny ≤ F.unit * F.unit * L) {n : Nat} (hn : (n : ℝ) * F.unit ≤ 1 / 72) {z : Fl F} {Z : ℝ}
    (hz : |z.1 - Z| ≤ 33 * F.unit * L) (dir : CircleDir) :
    List.Forall₂ (Near (33 * F.unit * L)) (vec3 0 0 z :: discretizeCircle (vec3 0 0 z) r n dir)
      (vec3 0 0 Z :: discretizeCircle (vec3 0 0 Z) r.1 n dir) := by
  have hu0 := F.unit_pos
  have hL : 0 ≤ L := hr.trans hrL
  have huL : 0 ≤ F.unit * L := mul_nonneg hu0.le hL
  refine .cons (near_axis (by linarith) hz) ?_
  rw [discretizeCircle_eq]
  unfold discretizeCircle
  rw [List.forall₂_map_left_iff, List.forall₂_map_right_iff, List.forall₂_same]
  intro i hi
  have hi := List.mem_range.1 hi
  have hpi := Real.pi_lt_d2
  have hpi0 := Real.pi_pos
  have A1 : |((i : Fl F) * (2 * HasTrig.pi / (n : Fl F))).1 - i * (2 * π / n)| ≤ 29 * F.unit := by
    have := angle_err (c := (2 * HasTrig.pi : Fl F)) Real.two_pi_pos.le (by linarith) (by norm_num : (15 : ℝ) ≤ 20)
      (two_pi_err hl hu ht) hu ht hn hi.le (by omega)
    exact this.trans (mul_le_mul_of_nonneg_right (by linarith) hu0.le)
  have A2 : |((i : Fl F) * (if dir = .cw then -(2 * HasTrig.pi / (n : Fl F)) else 2 * HasTrig.pi / (n : Fl F))).1
      - azimuth n (dirSign dir) i| ≤ 29 * F.unit := by
    cases dir with
    | ccw =>
      rw [if_neg (by simp)]
      have e : azimuth n (dirSign .ccw) i = i * (2 * π / n) := by unfold azimuth dirSign; rw [if_neg (by simp), one_mul]
      rw [e]; exact A1
    | cw =>
      rw [if_pos rfl]
      have e : azimuth n (dirSign .cw) i = -(i * (2 * π / n)) := by unfold azimuth dirSign; rw [if_pos rfl]; ring
      rw [e, Fl.val_mul, Fl.val_neg, mul_neg, F.rounds.odd, ← Fl.val_mul, ← abs_neg]
      rwa [show -(-((i : Fl F) * (2 * HasTrig.pi / (n : Fl F))).1 - -((i : ℝ) * (2 * π / n)))
        = ((i : Fl F) * (2 * HasTrig.pi / (n : Fl F))).1 - i * (2 * π / n) by ring]
  have habs : |azimuth n (dirSign dir) i| ≤ 2 * π := by
    have hn0 : (0 : ℝ) < n := by exact_mod_cast (by omega : 0 < n)
    have h1 : (i : ℝ) ≤ n := by exact_mod_cast hi.le
    have h2 : (i : ℝ) * (2 * π / n) ≤ 2 * π := by
      calc (i : ℝ) * (2 * π / n) ≤ n * (2 * π / n) := mul_le_mul_of_nonneg_right h1 (by positivity)
        _ = 2 * π := by field_simp
    unfold azimuth
    rw [abs_mul, abs_mul, abs_of_nonneg (show (0 : ℝ) ≤ i by positivity), abs_of_nonneg (show (0 : ℝ) ≤ 2 * π / n by positivity)]
    rcases dirSign_cases dir with h | h <;> rw [h] <;> norm_num <;> exact h2
  have B := trig_err hl A2 (by linarith)
  have C : ∀ {b : Fl F} {y : ℝ}, |b.1 - y| ≤ (29 + 2) * F.unit → |y| ≤ 1 → |(b * r).1 - y * r.1| ≤ 33 * F.unit * L := by
    intro b y hb hy
    have hrr : |r.1 - r.1| ≤ 0 := by rw [sub_self, abs_zero]
    refine (mul_err hb hrr hy ((abs_of_nonneg hr).le.trans hrL)).trans ?_
    have huu : F.unit * (F.unit * L) ≤ 1 / 576 * (F.unit * L) := mul_le_mul_of_nonneg_right hu huL
    have e : ((29 + 2) * F.unit * L + 1 * 0 + (29 + 2) * F.unit * 0) + F.unit * (1 * L + ((29 + 2) * F.unit * L + 1 * 0 + (29 + 2) * F.unit * 0)) + F.tiny
        = 32 * (F.unit * L) + 31 * (F.unit * (F.unit * L)) + F.tiny := by ring
    have htL' : F.tiny ≤ F.unit * (F.unit * L) := by rw [← mul_assoc]; exact htL
    rw [e]
    linarith
  have C1 := C B.1 (Real.abs_cos_le_one _)
  have C2 := C B.2 (Real.abs_sin_le_one _)
  intro c
  fin_cases c
  · show |((0 : Fl F) + _).1 - (0 + cos (azimuth n (dirSign dir) i) * r.1)| ≤ _
    rw [Fl.zero_add', zero_add]; exact C1
  · show |((0 : Fl F) + _).1 - (0 + sin (azimuth n (dirSign dir) i) * r.1)| ≤ _
    rw [Fl.zero_add', zero_add]; exact C2
  · show |(z + 0).1 - (Z + 0)| ≤ _
    rw [Fl.add_zero', add_zero]; exact hz

/-- The points of a cone and of a cylinder before they are placed. -/
theorem conePoints_near (hl : Fl.LibAccurate F) (hu : F.unit ≤ 1 / 576) (ht : F.tiny ≤ F.unit ^ 2) {r h : Fl F} {L H : ℝ} (hr : 0 ≤ r.1)
    (hrL : r.1 ≤ L) (htL : F.tiny ≤ F.unit * F.unit * L) {n : Nat} (hn : (n : ℝ) * F.unit ≤ 1 / 72)
    (hh : |h.1 - H| ≤ 33 * F.unit * L) :
    List.Forall₂ (Near (33 * F.unit * L)) (conePoints r h n) (conePoints r.1 H n) ∧
      List.Forall₂ (Near (33 * F.unit * L)) (cylPoints r h n) (cylPoints r.1 H n) := by
  have hu0 := F.unit_pos
  have hL : 0 ≤ F.unit * L := mul_nonneg hu0.le (hr.trans hrL)
  have hz : |(0 : Fl F).1 - 0| ≤ 33 * F.unit * L := by rw [Fl.val_zero, sub_self, abs_zero]; linarith
  have h0 := circle_near hl hu ht hr hrL htL hn hz .ccw
  have h1 := circle_near hl hu ht hr hrL htL hn hh .cw
  constructor
  · exact List.rel_append h0 (.cons (near_axis (by linarith) hh) .nil)
  · exact List.rel_append h0 h1

/-- The entries of an orthogonal matrix are at most one. -/
theorem orthogonal_le_one {Q : Matrix (Fin 3) (Fin 3) ℝ} (hQ : Orthogonal Q) (i j : Fin 3) : |Q i j| ≤ 1 := by
  have h := congrFun (congrFun hQ j) j
  rw [Matrix.mul_apply, Matrix.one_apply_eq] at h
  have h1 : Q i j ^ 2 ≤ 1 := by
    rw [← h]
    refine le_trans (le_of_eq ?_) (Finset.single_le_sum (f := fun k => Qᵀ j k * Q k j) (fun k _ => ?_) (Finset.mem_univ i))
    · show _ = Q i j * Q i j; ring
    · exact mul_self_nonneg (Q k j)
  exact (sq_le_one_iff_abs_le_one _).1 h1

/-- Placing a point. -/
theorem place_err {R : HMat (Fl F)} {src : Vec (Fl F) 3} {Q : Matrix (Fin 3) (Fin 3) ℝ} {K A L : ℝ} (hQ : Orthogonal Q)
    (hR : ∀ i j : Fin 3, |(R i.castSucc j.castSucc).1 - Q i j| ≤ K * F.unit) (hK : 0 ≤ K) (hKu : K * F.unit ≤ 1 / 48)
    (hu : F.unit ≤ 1 / 1536) (hL : 0 ≤ L) (htL : F.tiny ≤ F.unit * F.unit * L) (hA : ∀ c, |(src c).1| ≤ A) {p : Vec (Fl F) 3}
    {e : Vec ℝ 3} (hp : Near (33 * F.unit * L) p e) (he : ∀ c, |e c| ≤ L) :
    Near ((3 * K + 122) * F.unit * (L + A)) (transformVec p (hmatSetTranslation R src)) (affine Q (fun c => (src c).1) e) := by
  have hu0 := F.unit_pos
  have hA0 : 0 ≤ A := (abs_nonneg _).trans (hA 0)
  have huL : 0 ≤ F.unit * L := mul_nonneg hu0.le hL
  have huA : 0 ≤ F.unit * A := mul_nonneg hu0.le hA0
  have huu : F.unit * (F.unit * L) ≤ 1 / 1536 * (F.unit * L) := mul_le_mul_of_nonneg_right hu huL
  have hKL : 0 ≤ K * (F.unit * L) := mul_nonneg hK huL
  have hKuu : (K * F.unit) * (F.unit * L) ≤ 1 / 48 * (F.unit * L) := mul_le_mul_of_nonneg_right hKu huL
  have hKuuu : F.unit * ((K * F.unit) * (F.unit * L)) ≤ 1 / 1536 * (1 / 48 * (F.unit * L)) :=
    mul_le_mul hu hKuu (by positivity) (by norm_num)
  have htL' : F.tiny ≤ F.unit * (F.unit * L) := by rw [← mul_assoc]; exact htL
  intro c
  -- one product
  have P : ∀ j : Fin 3, |(R c.castSucc j.castSucc * p j).1 - Q c j * e j| ≤ K * (F.unit * L) + 37 * (F.unit * L) := by
    intro j
    refine (mul_err (hR c j) (hp j) (orthogonal_le_one hQ c j) (he j)).trans ?_
    have e1 : (K * F.unit * L + 1 * (33 * F.unit * L) + K * F.unit * (33 * F.unit * L)) + F.unit * (1 * L +
        (K * F.unit * L + 1 * (33 * F.unit * L) + K * F.unit * (33 * F.unit * L))) + F.tiny
        = K * (F.unit * L) + 34 * (F.unit * L) + 34 * ((K * F.unit) * (F.unit * L)) + 33 * (F.unit * (F.unit * L))
          + 33 * (F.unit * ((K * F.unit) * (F.unit * L))) + F.tiny := by ring
    rw [e1]
    linarith
  have X : ∀ j : Fin 3, |Q c j * e j| ≤ L := fun j => by
    rw [abs_mul]
    calc |Q c j| * |e j| ≤ 1 * L := mul_le_mul (orthogonal_le_one hQ c j) (he j) (abs_nonneg _) zero_le_one
      _ = L := one_mul L
  have hval : transformVec p (hmatSetTranslation R src) c
      = R c.castSucc 0 * p 0 + R c.castSucc 1 * p 1 + R c.castSucc 2 * p 2 + src c := by
    unfold transformVec toVec3 hmatVec
    rw [Fl.dot_four]
    have h3 : hmatSetTranslation R src c.castSucc 3 * toHvec p 3 = src c := by
      fin_cases c <;> simp [hmatSetTranslation, toHvec, Fl.mul_one']
    rw [h3]
    fin_cases c <;> rfl
  have hex : affine Q (fun c => (src c).1) e c = Q c 0 * e 0 + Q c 1 * e 1 + Q c 2 * e 2 + (src c).1 := by
    simp [affine, Matrix.mulVec, dotProduct, Fin.sum_univ_three]
  rw [hval, hex]
  -- the sums
  have S1 : |(R c.castSucc 0 * p 0 + R c.castSucc 1 * p 1).1 - (Q c 0 * e 0 + Q c 1 * e 1)|
      ≤ 2 * (K * (F.unit * L)) + 77 * (F.unit * L) := by
    have h1 : |(R c.castSucc 0 * p 0).1 + (R c.castSucc 1 * p 1).1 - (Q c 0 * e 0 + Q c 1 * e 1)|
        ≤ (K * (F.unit * L) + 37 * (F.unit * L)) + (K * (F.unit * L) + 37 * (F.unit * L)) := by
      rw [show (R c.castSucc 0 * p 0).1 + (R c.castSucc 1 * p 1).1 - (Q c 0 * e 0 + Q c 1 * e 1)
        = ((R c.castSucc 0 * p 0).1 - Q c 0 * e 0) + ((R c.castSucc 1 * p 1).1 - Q c 1 * e 1) by ring]
      exact (abs_add_le _ _).trans (add_le_add (P 0) (P 1))
    have h2 : |Q c 0 * e 0 + Q c 1 * e 1| ≤ L + L := (abs_add_le _ _).trans (add_le_add (X 0) (X 1))
    rw [Fl.val_add]
    refine (F.err_of h1 h2).trans ?_
    have e1 : (K * (F.unit * L) + 37 * (F.unit * L)) + (K * (F.unit * L) + 37 * (F.unit * L)) + F.unit * (L + L +
        ((K * (F.unit * L) + 37 * (F.unit * L)) + (K * (F.unit * L) + 37 * (F.unit * L)))) + F.tiny
        = 2 * (K * (F.unit * L)) + 76 * (F.unit * L) + 2 * ((K * F.unit) * (F.unit * L)) + 74 * (F.unit * (F.unit * L)) + F.tiny := by ring
    rw [e1]
    linarith
  have S2 : |(R c.castSucc 0 * p 0 + R c.castSucc 1 * p 1 + R c.castSucc 2 * p 2).1 - (Q c 0 * e 0 + Q c 1 * e 1 + Q c 2 * e 2)|
      ≤ 3 * (K * (F.unit * L)) + 118 * (F.unit * L) := by
    have h1 : |(R c.castSucc 0 * p 0 + R c.castSucc 1 * p 1).1 + (R c.castSucc 2 * p 2).1 - (Q c 0 * e 0 + Q c 1 * e 1 + Q c 2 * e 2)|
        ≤ (2 * (K * (F.unit * L)) + 77 * (F.unit * L)) + (K * (F.unit * L) + 37 * (F.unit * L)) := by
      rw [show (R c.castSucc 0 * p 0 + R c.castSucc 1 * p 1).1 + (R c.castSucc 2 * p 2).1 - (Q c 0 * e 0 + Q c 1 * e 1 + Q c 2 * e 2)
        = ((R c.castSucc 0 * p 0 + R c.castSucc 1 * p 1).1 - (Q c 0 * e 0 + Q c 1 * e 1)) + ((R c.castSucc 2 * p 2).1 - Q c 2 * e 2) by ring]
      exact (abs_add_le _ _).trans (add_le_add S1 (P 2))
    have h2 : |Q c 0 * e 0 + Q c 1 * e 1 + Q c 2 * e 2| ≤ L + L + L :=
      (abs_add_le _ _).trans (add_le_add ((abs_add_le _ _).trans (add_le_add (X 0) (X 1))) (X 2))
    rw [Fl.val_add]
    refine (F.err_of h1 h2).trans ?_
    have e1 : (2 * (K * (F.unit * L)) + 77 * (F.unit * L)) + (K * (F.unit * L) + 37 * (F.unit * L)) + F.unit * (L + L + L +
        ((2 * (K * (F.unit * L)) + 77 * (F.unit * L)) + (K * (F.unit * L) + 37 * (F.unit * L)))) + F.tiny
        = 3 * (K * (F.unit * L)) + 117 * (F.unit * L) + 3 * ((K * F.unit) * (F.unit * L)) + 114 * (F.unit * (F.unit * L)) + F.tiny := by ring
    rw [e1]
    linarith
  have h2 : |Q c 0 * e 0 + Q c 1 * e 1 + Q c 2 * e 2 + (src c).1| ≤ L + L + L + A :=
    (abs_add_le _ _).trans (add_le_add ((abs_add_le _ _).trans (add_le_add ((abs_add_le _ _).trans (add_le_add (X 0) (X 1))) (X 2))) (hA c))
  refine (add_err S2 h2).trans ?_
  have e1 : 3 * (K * (F.unit * L)) + 118 * (F.unit * L) + F.unit * (L + L + L + A + (3 * (K * (F.unit * L)) + 118 * (F.unit * L))) + F.tiny
      = 3 * (K * (F.unit * L)) + 121 * (F.unit * L) + F.unit * A + 3 * ((K * F.unit) * (F.unit * L)) + 118 * (F.unit * (F.unit * L)) + F.tiny := by
    ring
  have e2 : (3 * K + 122) * F.unit * (L + A) = 3 * (K * (F.unit * L)) + 122 * (F.unit * L) + 3 * (K * (F.unit * A)) + 122 * (F.unit * A) := by ring
  have hKA : 0 ≤ K * (F.unit * A) := mul_nonneg hK huA
  rw [e1, e2]
  linarith

/-! ### Separation -/

theorem exists_of_forall₂ {α β : Type} {R : α → β → Prop} {l : List α} {l' : List β} (h : List.Forall₂ R l l') :
    (∀ x ∈ l, ∃ y ∈ l', R x y) ∧ ∀ y ∈ l', ∃ x ∈ l, R x y := by
  induction h with
  | nil => simp
  | cons h1 _ ih =>
    constructor
    · intro x hx
      rcases List.mem_cons.1 hx with rfl | hx
      · exact ⟨_, List.mem_cons_self .., h1⟩
      · obtain ⟨y, hy, h⟩ := ih.1 x hx
        exact ⟨y, List.mem_cons_of_mem _ hy, h⟩
    · intro y hy
      rcases List.mem_cons.1 hy with rfl | hy
      · exact ⟨_, List.mem_cons_self .., h1⟩
      · obtain ⟨x, hx, h⟩ := ih.2 y hy
        exact ⟨x, List.mem_cons_of_mem _ hx, h⟩

theorem pairwise_of_forall₂ {α β : Type} {R : α → β → Prop} {S : β → β → Prop} {T : α → α → Prop} {l : List α} {l' : List β}
    (h : List.Forall₂ R l l') (hS : l'.Pairwise S) (hT : ∀ a a' b b', R a a' → R b b' → S a' b' → T a b) : l.Pairwise T := by
  induction h with
  | nil => exact .nil
  | cons hab hl ih =>
    rw [List.pairwise_cons] at hS ⊢
    refine ⟨?_, ih hS.2⟩
    intro x hx
    obtain ⟨y, hy, hxy⟩ := (exists_of_forall₂ hl).1 x hx
    exact hT _ _ _ _ hab hxy (hS.1 y hy)

/-- Points far apart differ in some coordinate. -/
theorem coord_of_dist {a b : Vec ℝ 3} {s : ℝ} (h : s ≤ Spec.dist a b) : ∃ c, s / 2 ≤ |a c - b c| := by
  by_contra hc
  push Not at hc
  have h1 : ∀ c, (a c - b c) ^ 2 ≤ (s / 2) ^ 2 := fun c => by
    rw [← sq_abs]; exact pow_le_pow_left₀ (abs_nonneg _) (hc c).le 2
  have h2 : 0 < s := by
    have := (abs_nonneg _).trans_lt (hc 0)
    linarith
  have h3 : Spec.dist a b < s := by
    unfold Spec.dist
    rw [Real.sqrt_lt' h2, Fin.sum_univ_three]
    have := h1 0
    have := h1 1
    have := h1 2
    nlinarith
  linarith

/-- Computed points whose exact counterparts are far apart. -/
theorem near_sep {p q : Vec (Fl F) 3} {a b : Vec ℝ 3} {d s g : ℝ} (hp : Near d p a) (hq : Near d q b)
    (hs : s ≤ Spec.dist a b) (hg : g + 2 * d ≤ s / 2) : ∃ c, g ≤ |(p c).1 - (q c).1| := by
  obtain ⟨c, hc⟩ := coord_of_dist hs
  refine ⟨c, ?_⟩
  have h1 := hp c
  have h2 := hq c
  have h3 : |a c - b c| ≤ |(p c).1 - (q c).1| + d + d := by
    rw [show a c - b c = ((p c).1 - (q c).1) + -((p c).1 - a c) + ((q c).1 - b c) by ring]
    refine (abs_add_le _ _).trans (add_le_add ((abs_add_le _ _).trans (add_le_add le_rfl ?_)) h2)
    rwa [abs_neg]
  linarith
end
end Verif
