import Verif.Props.FloatSkew

set_option linter.unusedSectionVars false

/-
Errors of the computed parameters of the closest points of two lines with directions of any length, which may
themselves have been rounded.
-/
namespace Verif
open Spec

variable {F : FloatFormat}

/-- The computed scalar product of two vectors with small relative errors. -/
theorem dot_rel2 (a' b' : Vec (Fl F) 3) (a b : Vec ℝ 3) (ha : ∀ i, |(a' i).1 - a i| ≤ F.unit * |a i|) (hb : ∀ i, |(b' i).1 - b i| ≤ F.unit * |b i|)
    (hu1 : F.unit ≤ 1 / 512) (hD : 64 * (3 + 2) ≤ 2 ^ F.prec) (ht : F.tiny ≤ F.unit * F.unit) {N : ℝ} (hN : Spec.norm a * Spec.norm b ≤ N)
    (htN : 16 * F.tiny ≤ F.unit * N) : |(dot a' b').1 - a ⬝ᵥ b| ≤ 10 * (F.unit * N) := by
  have hu0 := F.unit_pos
  have h1 := dot_abs a' b' a ha hD ht
  push_cast at h1
  have hA0 := norm_nonneg' a
  have hB0 := norm_nonneg' b
  have hd : Spec.dist (Fl.vals b') b ≤ F.unit * Spec.norm b := by
    have := dist_of_rel (a := Fl.vals b') (b := b) hu0.le le_rfl fun i => by
      rw [add_zero]; exact hb i
    linarith
  have hB : Spec.norm (Fl.vals b') ≤ 513 / 512 * Spec.norm b := by
    have h2 := (abs_le.1 (norm_sub_norm (Fl.vals b') b)).2
    have h3 := mul_le_mul_of_nonneg_right hu1 hB0
    linarith
  have h2 : |∑ i, a i * (b' i).1 - a ⬝ᵥ b| ≤ F.unit * (Spec.norm a * Spec.norm b) := by
    have e : ∑ i, a i * (b' i).1 - a ⬝ᵥ b = ∑ i, a i * ((b' i).1 - b i) := by
      unfold dotProduct
      rw [← Finset.sum_sub_distrib]
      exact Finset.sum_congr rfl fun i _ => by ring
    rw [e]
    refine (abs_dp_le a fun i => (b' i).1 - b i).trans ?_
    have h3 : Spec.norm (fun i => (b' i).1 - b i) ≤ F.unit * Spec.norm b := hd
    have := mul_le_mul_of_nonneg_left h3 hA0
    linarith
  have h3 : Spec.norm a * Spec.norm (Fl.vals b') ≤ 513 / 512 * (Spec.norm a * Spec.norm b) := by
    have := mul_le_mul_of_nonneg_left hB hA0
    linarith
  have h4 := mul_le_mul_of_nonneg_left h3 hu0.le
  have h5 := mul_le_mul_of_nonneg_left hN hu0.le
  have h6 := abs_sub_le (dot a' b').1 (∑ i, a i * (b' i).1) (a ⬝ᵥ b)
  have h7 : 0 ≤ F.unit * (Spec.norm a * Spec.norm b) := by positivity
  linarith

/-- A computed product of two scalar products. -/
theorem prod_rel {p q : Fl F} {x y X Y : ℝ} (hu1 : F.unit ≤ 1 / 512) (hp : |p.1 - x| ≤ 10 * (F.unit * X)) (hq : |q.1 - y| ≤ 10 * (F.unit * Y))
    (hx : |x| ≤ X) (hy : |y| ≤ Y) {M : ℝ} (hM : X * Y = M) (ht : 16 * F.tiny ≤ F.unit * M) : |(p * q).1 - x * y| ≤ 107 / 5 * (F.unit * M) := by
  have hu0 := F.unit_pos
  have hX0 := (abs_nonneg _).trans hx
  have hY0 := (abs_nonneg _).trans hy
  have h := mul_err hp hq hx hy
  have e : 10 * (F.unit * X) * Y + X * (10 * (F.unit * Y)) + 10 * (F.unit * X) * (10 * (F.unit * Y)) = 20 * (F.unit * M) + 100 * (F.unit * (F.unit * M)) := by
    rw [← hM]; ring
  rw [e, hM] at h
  have hM0 : 0 ≤ F.unit * M := by rw [← hM]; positivity
  have h1 : F.unit * (F.unit * M) ≤ 1 / 512 * (F.unit * M) := mul_le_mul_of_nonneg_right hu1 hM0
  have h2 : F.unit * (F.unit * (F.unit * M)) ≤ 1 / 512 * (1 / 512 * (F.unit * M)) := mul_le_mul hu1 h1 (by positivity) (by norm_num)
  linarith

/-- A computed difference of two such products. -/
theorem det_rel3 {P Q : Fl F} {x y M : ℝ} (hu1 : F.unit ≤ 1 / 512) (hP : |P.1 - x| ≤ 107 / 5 * (F.unit * M)) (hQ : |Q.1 - y| ≤ 107 / 5 * (F.unit * M))
    (hx : |x| ≤ M) (hy : |y| ≤ M) : |(P - Q).1 - (x - y)| ≤ 45 * (F.unit * M) := by
  have hu0 := F.unit_pos
  have hM0 : 0 ≤ M := (abs_nonneg _).trans hx
  have h3 := Fl.sub_rel P Q
  have a1 := abs_le_of_close hP hx
  have a2 := abs_le_of_close hQ hy
  have h4 : |P.1 - Q.1| ≤ |P.1| + |Q.1| := abs_sub _ _
  have h5 := mul_le_mul_of_nonneg_left (h4.trans (add_le_add a1 a2)) hu0.le
  have h6 : |(P - Q).1 - (x - y)| ≤ |(P - Q).1 - (P.1 - Q.1)| + (|P.1 - x| + |Q.1 - y|) := by
    rw [show (P - Q).1 - (x - y) = ((P - Q).1 - (P.1 - Q.1)) + ((P.1 - x) - (Q.1 - y)) by ring]
    exact (abs_add_le _ _).trans (add_le_add_right (abs_sub _ _) _)
  have hu : 0 ≤ F.unit * M := by positivity
  have h1 : F.unit * (F.unit * M) ≤ 1 / 512 * (F.unit * M) := mul_le_mul_of_nonneg_right hu1 hu
  linarith

/-- The computed parameter; `A`, `B` are the lengths of the directions. -/
theorem quot_rel {n d : Fl F} {T G s A B W K t : ℝ} (hA : 0 < A) (hB : 0 < B) (hn : |n.1 - T| ≤ 45 * (F.unit * (A * B ^ 2 * W)))
    (hd : |d.1 - G| ≤ 45 * (F.unit * (A ^ 2 * B ^ 2))) (hs0 : 0 < s) (hG : s ^ 2 * (A ^ 2 * B ^ 2) ≤ G) (hs1 : s ≤ 1) (hu : 256 * F.unit ≤ s ^ 2) (hK : K = W / s)
    (hW0 : 0 ≤ W) (hT : T = t * G) (htK : A * |t| ≤ K) (hτ : 16 * (A * F.tiny) ≤ F.unit * W) :
    A * |(n / d).1 - t| ≤ 122 * (F.unit / s ^ 2 * K) := by
  have hu0 := F.unit_pos
  have hq : 0 < s ^ 2 := by positivity
  have hM : 0 < A ^ 2 * B ^ 2 := by positivity
  have hG0 : 0 < G := lt_of_lt_of_le (by positivity) hG
  have hK0 : 0 ≤ K := by rw [hK]; positivity
  have hWK : W = s * K := by rw [hK]; field_simp
  have hWK' : W ≤ K := by rw [hWK]; exact mul_le_of_le_one_left hK0 hs1
  obtain ⟨d1, d2⟩ := abs_le.1 hd
  have hd3 : 3 / 4 * (s ^ 2 * (A ^ 2 * B ^ 2)) ≤ d.1 := by
    have := mul_le_mul_of_nonneg_right hu hM.le
    linarith
  have hd0 : 0 < d.1 := lt_of_lt_of_le (by positivity) hd3
  set x := n.1 / d.1 with hx
  have e : (x - t) * d.1 = (n.1 - T) - t * (d.1 - G) := by rw [hx, hT]; field_simp; ring
  have h1 : |x - t| * d.1 ≤ |n.1 - T| + |t| * |d.1 - G| := by
    rw [← abs_of_pos hd0, ← abs_mul, e, ← abs_mul, abs_of_pos hd0]; exact abs_sub _ _
  have h2 : |t| * |d.1 - G| ≤ |t| * (45 * (F.unit * (A ^ 2 * B ^ 2))) := mul_le_mul_of_nonneg_left hd (abs_nonneg _)
  have h3 : |x - t| * (3 / 4 * (s ^ 2 * (A ^ 2 * B ^ 2))) ≤ |x - t| * d.1 := mul_le_mul_of_nonneg_left hd3 (abs_nonneg _)
  have h4 : (A * |x - t|) * (3 / 4 * s ^ 2 * (A * B ^ 2)) ≤ (45 * F.unit * (W + K)) * (A * B ^ 2) := by
    have k1 : (A * |t|) * (45 * (F.unit * (A * B ^ 2))) ≤ K * (45 * (F.unit * (A * B ^ 2))) := mul_le_mul_of_nonneg_right htK (by positivity)
    have k2 : (A * |x - t|) * (3 / 4 * s ^ 2 * (A * B ^ 2)) = |x - t| * (3 / 4 * (s ^ 2 * (A ^ 2 * B ^ 2))) := by ring
    have k3 : (A * |t|) * (45 * (F.unit * (A * B ^ 2))) = |t| * (45 * (F.unit * (A ^ 2 * B ^ 2))) := by ring
    rw [k2]
    rw [k3] at k1
    have k4 : 45 * F.unit * (W + K) * (A * B ^ 2) = 45 * (F.unit * (A * B ^ 2 * W)) + K * (45 * (F.unit * (A * B ^ 2))) := by ring
    rw [k4]
    linarith
  have h5 : (A * |x - t|) * (3 / 4 * s ^ 2) ≤ 45 * F.unit * (W + K) := by
    refine le_of_mul_le_mul_right ?_ (show 0 < A * B ^ 2 by positivity)
    linarith
  have h6 : A * |x - t| ≤ 120 * (F.unit / s ^ 2 * K) := by
    have k1 : F.unit * W ≤ F.unit * K := mul_le_mul_of_nonneg_left hWK' hu0.le
    have k2 : (A * |x - t|) * s ^ 2 ≤ (120 * (F.unit / s ^ 2 * K)) * s ^ 2 := by
      rw [show (120 * (F.unit / s ^ 2 * K)) * s ^ 2 = 120 * (F.unit * K) by field_simp]
      linarith
    exact le_of_mul_le_mul_right k2 hq
  have ha1 : F.unit / s ^ 2 ≤ 1 / 256 := by rw [div_le_iff₀ hq]; linarith
  have ha2 : F.unit ≤ F.unit / s ^ 2 := by
    rw [le_div_iff₀ hq]
    exact mul_le_of_le_one_right hu0.le (pow_le_one₀ hs0.le hs1)
  have haK : F.unit / s ^ 2 * K ≤ 1 / 256 * K := mul_le_mul_of_nonneg_right ha1 hK0
  have huK2 : F.unit * K ≤ F.unit / s ^ 2 * K := mul_le_mul_of_nonneg_right ha2 hK0
  have hB' := F.err x
  have hv : (n / d).1 = F.rnd x := Fl.val_div _ _
  rw [hv]
  have hxK : A * |x| ≤ 3 / 2 * K := by
    have h7 : |x| ≤ |t| + |x - t| := by
      have := abs_sub_abs_le_abs_sub x t
      linarith
    have := mul_le_mul_of_nonneg_left h7 hA.le
    linarith
  have h8 := mul_le_mul_of_nonneg_left hxK hu0.le
  have h9 := mul_le_mul_of_nonneg_left hB' hA.le
  have h10 : |F.rnd x - t| ≤ |F.rnd x - x| + |x - t| := by
    rw [show F.rnd x - t = (F.rnd x - x) + (x - t) by ring]; exact abs_add_le _ _
  have h11 := mul_le_mul_of_nonneg_left h10 hA.le
  have h12 : F.unit * W ≤ F.unit * K := mul_le_mul_of_nonneg_left hWK' hu0.le
  have h13 : A * (F.unit * |x| + F.tiny) = F.unit * (A * |x|) + A * F.tiny := by ring
  rw [h13] at h9
  have h14 : 0 ≤ F.unit * K := by positivity
  linarith

/-- The sine is at most one. -/
theorem sine_le_one {D : ℕ} {a b : Vec ℝ D} {s : ℝ} (ha : 0 < Spec.norm a) (hb : 0 < Spec.norm b) (hs : s ^ 2 * (Spec.norm a ^ 2 * Spec.norm b ^ 2) ≤ Spec.gram a b) : s ≤ 1 := by
  have hM : 0 < Spec.norm a ^ 2 * Spec.norm b ^ 2 := by positivity
  have h1 : s ^ 2 * (Spec.norm a ^ 2 * Spec.norm b ^ 2) ≤ 1 * (Spec.norm a ^ 2 * Spec.norm b ^ 2) := by
    refine hs.trans ?_
    rw [gram_eq, dp_self_norm, dp_self_norm]
    have := mul_self_nonneg (a ⬝ᵥ b)
    linarith
  exact le_of_sq_le_sq (by have := le_of_mul_le_mul_right h1 hM; linarith) (by norm_num)

/-- The computed parameters of the closest points of two lines, for (rounded) directions of any length. -/
theorem closest_gen [Tol (Fl F)] (lo a' ro b' : Vec (Fl F) 3) (a b : Vec ℝ 3) (eps : Fl F) (hp : 9 ≤ F.prec) (hmin : ∀ k, F.emin = some k → k ≤ -4 * (F.prec : ℤ))
    (ha : ∀ i, |(a' i).1 - a i| ≤ F.unit * |a i|) (hb : ∀ i, |(b' i).1 - b i| ≤ F.unit * |b i|) {s m W K : ℝ} (hm0 : 0 < m) (hm1 : m ≤ 1)
    (hmA : m ≤ Spec.norm a) (hmB : m ≤ Spec.norm b) (hAm : Spec.norm a * m ≤ 1) (hBm : Spec.norm b * m ≤ 1) (hmW : m ≤ W) (hτ : 16 * F.tiny ≤ F.unit * m ^ 4)
    (hW : Spec.dist (Fl.vals lo) (Fl.vals ro) ≤ W) (hK : K = W / s) (hs0 : 0 < s) (hs : s ^ 2 * (Spec.norm a ^ 2 * Spec.norm b ^ 2) ≤ Spec.gram a b)
    (hu : 256 * F.unit ≤ s ^ 2) (hz : ∀ x : Fl F, 1 / 2 * (s ^ 2 * (Spec.norm a ^ 2 * Spec.norm b ^ 2)) ≤ |x.1| → Tol.isZero x eps = false) :
    ∃ par t z, closestPointOnLineParameters lo a' ro b' eps = some par ∧
      ((Fl.vals lo - Fl.vals ro) + t • a - z • b) ⬝ᵥ a = 0 ∧ ((Fl.vals lo - Fl.vals ro) + t • a - z • b) ⬝ᵥ b = 0 ∧
      Spec.norm a * |t| ≤ K ∧ Spec.norm b * |z| ≤ K ∧
      Spec.norm a * |par.t.1 - t| ≤ 122 * (F.unit / s ^ 2 * K) ∧ Spec.norm b * |par.s.1 - z| ≤ 122 * (F.unit / s ^ 2 * K) := by
  obtain ⟨-, hu1⟩ := tiny_small hmin hp
  have hu0 := F.unit_pos
  have ht0 := F.tiny_nonneg
  have htt := tiny_of_emin (F := F) fun k hk => by have := hmin k hk; omega
  have hD : 64 * (3 + 2) ≤ 2 ^ F.prec := le_trans (by norm_num) (Nat.pow_le_pow_right (by norm_num) hp)
  set w : Vec ℝ 3 := Fl.vals lo - Fl.vals ro with hw
  have hww : ∀ i, |(vsub lo ro i).1 - w i| ≤ F.unit * |w i| := fun i => Fl.sub_rel _ _
  have hWw : Spec.norm w ≤ W := hW
  have hA0 : 0 < Spec.norm a := by linarith
  have hB0 : 0 < Spec.norm b := by linarith
  have hW0 : 0 < W := by linarith
  have hs1 := sine_le_one hA0 hB0 hs
  set A := Spec.norm a with hA
  set B := Spec.norm b with hB
  -- underflow
  have hm2 : m ^ 4 ≤ m * m := by
    have : m ^ 2 ≤ 1 := pow_le_one₀ hm0.le hm1
    have h1 := mul_le_mul_of_nonneg_left this (show 0 ≤ m ^ 2 by positivity)
    calc m ^ 4 = m ^ 2 * m ^ 2 := by ring
      _ ≤ m ^ 2 * 1 := h1
      _ = m * m := by ring
  have t2 : ∀ {x y : ℝ}, m ≤ x → m ≤ y → 16 * F.tiny ≤ F.unit * (x * y) := fun hx hy =>
    hτ.trans (mul_le_mul_of_nonneg_left (hm2.trans (mul_le_mul hx hy hm0.le (hm0.le.trans hx))) hu0.le)
  have t4 : ∀ {x y z v : ℝ}, m ≤ x → m ≤ y → m ≤ z → m ≤ v → 16 * F.tiny ≤ F.unit * ((x * y) * (z * v)) := fun {x y z v} hx hy hz hv => by
    refine hτ.trans (mul_le_mul_of_nonneg_left ?_ hu0.le)
    have h1 := mul_le_mul hx hy hm0.le (hm0.le.trans hx)
    have h2 := mul_le_mul hz hv hm0.le (hm0.le.trans hz)
    have h3 := mul_le_mul h1 h2 (by positivity) ((mul_self_nonneg m).trans h1)
    linarith [show m ^ 4 = m * m * (m * m) by ring]
  have tA : ∀ {x : ℝ}, 0 < x → x * m ≤ 1 → 16 * (x * F.tiny) ≤ F.unit * W := fun {x} hx h => by
    have h1 := mul_le_mul_of_nonneg_left hτ hx.le
    have h2 : x * (F.unit * m ^ 4) = F.unit * ((x * m) * m ^ 3) := by ring
    have h3 : (x * m) * m ^ 3 ≤ 1 * m ^ 3 := mul_le_mul_of_nonneg_right h (by positivity)
    have h4 : m ^ 3 ≤ m := by
      have : m ^ 2 ≤ 1 := pow_le_one₀ hm0.le hm1
      have := mul_le_mul_of_nonneg_left this hm0.le
      linarith [show m ^ 3 = m * m ^ 2 by ring]
    have h5 := mul_le_mul_of_nonneg_left (h3.trans (by linarith : 1 * m ^ 3 ≤ W)) hu0.le
    linarith
  -- scalar products
  have eaa := dot_rel2 a' a' a a ha ha hu1 hD htt (N := A * A) le_rfl (t2 hmA hmA)
  have eab := dot_rel2 a' b' a b ha hb hu1 hD htt (N := A * B) le_rfl (t2 hmA hmB)
  have ebb := dot_rel2 b' b' b b hb hb hu1 hD htt (N := B * B) le_rfl (t2 hmB hmB)
  have ead := dot_rel2 a' (vsub lo ro) a w ha hww hu1 hD htt (N := A * W) (mul_le_mul_of_nonneg_left hWw hA0.le) (t2 hmA hmW)
  have ebe := dot_rel2 b' (vsub lo ro) b w hb hww hu1 hD htt (N := B * W) (mul_le_mul_of_nonneg_left hWw hB0.le) (t2 hmB hmW)
  have maa : |a ⬝ᵥ a| ≤ A * A := abs_dp_le a a
  have mab : |a ⬝ᵥ b| ≤ A * B := abs_dp_le a b
  have mbb : |b ⬝ᵥ b| ≤ B * B := abs_dp_le b b
  have mad : |a ⬝ᵥ w| ≤ A * W := (abs_dp_le a w).trans (mul_le_mul_of_nonneg_left hWw hA0.le)
  have mbe : |b ⬝ᵥ w| ≤ B * W := (abs_dp_le b w).trans (mul_le_mul_of_nonneg_left hWw hB0.le)
  have mm : ∀ {x y X Y M : ℝ}, |x| ≤ X → |y| ≤ Y → X * Y = M → |x * y| ≤ M := fun hx hy h => by
    rw [abs_mul, ← h]; exact mul_le_mul hx hy (abs_nonneg _) ((abs_nonneg _).trans hx)
  set G := Spec.gram a b with hG
  have hgram : G = (a ⬝ᵥ a) * (b ⬝ᵥ b) - (a ⬝ᵥ b) * (a ⬝ᵥ b) := gram_eq _ _
  have hden : |(dot a' a' * dot b' b' - dot a' b' * dot a' b').1 - G| ≤ 45 * (F.unit * (A ^ 2 * B ^ 2)) := by
    rw [hgram]
    have e1 : A * A * (B * B) = A ^ 2 * B ^ 2 := by ring
    have e2 : A * B * (A * B) = A ^ 2 * B ^ 2 := by ring
    exact det_rel3 hu1 (prod_rel hu1 eaa ebb maa mbb e1 (e1 ▸ t4 hmA hmA hmB hmB)) (prod_rel hu1 eab eab mab mab e2 (e2 ▸ t4 hmA hmB hmA hmB))
      (mm maa mbb e1) (mm mab mab e2)
  have hnT : |(dot a' b' * dot b' (vsub lo ro) - dot b' b' * dot a' (vsub lo ro)).1 - ((a ⬝ᵥ b) * (b ⬝ᵥ w) - (b ⬝ᵥ b) * (a ⬝ᵥ w))| ≤ 45 * (F.unit * (A * B ^ 2 * W)) := by
    have e1 : A * B * (B * W) = A * B ^ 2 * W := by ring
    have e2 : B * B * (A * W) = A * B ^ 2 * W := by ring
    exact det_rel3 hu1 (prod_rel hu1 eab ebe mab mbe e1 (e1 ▸ t4 hmA hmB hmB hmW)) (prod_rel hu1 ebb ead mbb mad e2 (e2 ▸ t4 hmB hmB hmA hmW))
      (mm mab mbe e1) (mm mbb mad e2)
  have hnZ : |(dot a' a' * dot b' (vsub lo ro) - dot a' b' * dot a' (vsub lo ro)).1 - ((a ⬝ᵥ a) * (b ⬝ᵥ w) - (a ⬝ᵥ b) * (a ⬝ᵥ w))| ≤ 45 * (F.unit * (B * A ^ 2 * W)) := by
    have e1 : A * A * (B * W) = B * A ^ 2 * W := by ring
    have e2 : A * B * (A * W) = B * A ^ 2 * W := by ring
    exact det_rel3 hu1 (prod_rel hu1 eaa ebe maa mbe e1 (e1 ▸ t4 hmA hmA hmB hmW)) (prod_rel hu1 eab ead mab mad e2 (e2 ▸ t4 hmA hmB hmA hmW))
      (mm maa mbe e1) (mm mab mad e2)
  have hM : 0 < A ^ 2 * B ^ 2 := by positivity
  have hq : 0 < s ^ 2 := by positivity
  have hG0 : 0 < G := lt_of_lt_of_le (by positivity) hs
  -- the exact parameters
  have hsG : s * (A * B) ≤ Real.sqrt G := Real.le_sqrt_of_sq_le (by rw [show (s * (A * B)) ^ 2 = s ^ 2 * (A ^ 2 * B ^ 2) by ring]; exact hs)
  have hsq0 : 0 < Real.sqrt G := lt_of_lt_of_le (by positivity) hsG
  have hGG : G = Real.sqrt G * Real.sqrt G := (Real.mul_self_sqrt hG0.le).symm
  have hWK : W = s * K := by rw [hK]; field_simp
  have hK0 : 0 ≤ K := by rw [hK]; positivity
  have hpar : ∀ {T x y : ℝ}, 0 < x → x * y = A * B → |T| ≤ y * Real.sqrt G * Spec.norm w → 0 ≤ y → x * |T / G| ≤ K := by
    intro T x y hx hxy h1 hy
    rw [abs_div, abs_of_pos hG0, mul_div_assoc', div_le_iff₀ hG0]
    have h2 : x * |T| ≤ x * (y * Real.sqrt G * W) :=
      mul_le_mul_of_nonneg_left (h1.trans (mul_le_mul_of_nonneg_left hWw (by positivity))) hx.le
    have h3 : x * (y * Real.sqrt G * W) = K * (s * (A * B) * Real.sqrt G) := by rw [hWK, ← hxy]; ring
    have h4 : K * (s * (A * B) * Real.sqrt G) ≤ K * (Real.sqrt G * Real.sqrt G) :=
      mul_le_mul_of_nonneg_left (mul_le_mul_of_nonneg_right hsG hsq0.le) hK0
    rw [← hGG] at h4
    linarith
  have htK : A * |((a ⬝ᵥ b) * (b ⬝ᵥ w) - (b ⬝ᵥ b) * (a ⬝ᵥ w)) / G| ≤ K := hpar hA0 rfl closest_param_le hB0.le
  have hzK : B * |((a ⬝ᵥ a) * (b ⬝ᵥ w) - (a ⬝ᵥ b) * (a ⬝ᵥ w)) / G| ≤ K := hpar hB0 (mul_comm _ _) (by
    have h1 := closest_param_le (w := w) (d := b) (e := a)
    rw [gram_comm, ← hG, dotProduct_comm b a] at h1
    rw [← abs_neg, show -((a ⬝ᵥ a) * (b ⬝ᵥ w) - (a ⬝ᵥ b) * (a ⬝ᵥ w)) = (a ⬝ᵥ b) * (a ⬝ᵥ w) - (a ⬝ᵥ a) * (b ⬝ᵥ w) by ring]
    exact h1) hA0.le
  obtain ⟨c1, c2⟩ := closest_critical (w := w) hG0.ne' rfl rfl
  have hdd : 1 / 2 * (s ^ 2 * (A ^ 2 * B ^ 2)) ≤ |(dot a' a' * dot b' b' - dot a' b' * dot a' b').1| := by
    obtain ⟨h1, -⟩ := abs_le.1 hden
    have h2 := mul_le_mul_of_nonneg_right hu hM.le
    have h3 : 0 ≤ s ^ 2 * (A ^ 2 * B ^ 2) := by positivity
    exact le_trans (by linarith) (le_abs_self _)
  refine ⟨⟨(dot a' b' * dot b' (vsub lo ro) - dot b' b' * dot a' (vsub lo ro)) / (dot a' a' * dot b' b' - dot a' b' * dot a' b'),
    (dot a' a' * dot b' (vsub lo ro) - dot a' b' * dot a' (vsub lo ro)) / (dot a' a' * dot b' b' - dot a' b' * dot a' b')⟩, _, _, ?_, c1, c2, htK, hzK, ?_, ?_⟩
  · unfold closestPointOnLineParameters
    simp only
    rw [hz _ hdd]
    rfl
  · exact quot_rel hA0 hB0 hnT hden hs0 hs hs1 hu hK hW0.le (div_mul_cancel₀ _ hG0.ne').symm htK (tA hA0 hAm)
  · exact quot_rel hB0 hA0 hnZ (by rw [mul_comm (B ^ 2)]; exact hden) hs0 (by rw [mul_comm (B ^ 2)]; exact hs) hs1 hu hK hW0.le (div_mul_cancel₀ _ hG0.ne').symm hzK (tA hB0 hBm)

/-- The computed point at a parameter. -/
theorem point_gen (o d' : Vec (Fl F) 3) (d : Vec ℝ 3) (t' : Fl F) {t α K W : ℝ} (hu1 : F.unit ≤ 1 / 512) (hd : ∀ i, |(d' i).1 - d i| ≤ F.unit * |d i|) (hK0 : 0 ≤ K)
    (hα : α ≤ 1 / 256) (huα : F.unit ≤ α) (hWK : W ≤ K) (hτ : 16 * F.tiny ≤ F.unit * W) (ht : Spec.norm d * |t| ≤ K) (ht' : Spec.norm d * |t'.1 - t| ≤ 122 * (α * K)) :
    Spec.dist (Fl.vals (vadd o (vscale d' t'))) (Spec.pointAt (Fl.vals o) d t) ≤ F.unit * Spec.norm (Spec.pointAt (Fl.vals o) d t) + 127 * (α * K) := by
  have hu0 := F.unit_pos
  have ht0 := F.tiny_nonneg
  have haK : α * K ≤ 1 / 256 * K := mul_le_mul_of_nonneg_right hα hK0
  have huK : F.unit * K ≤ α * K := mul_le_mul_of_nonneg_right huα hK0
  have huK0 : 0 ≤ F.unit * K := by positivity
  have hn0 := norm_nonneg' d
  set m : Vec (Fl F) 3 := vscale d' t' with hm
  set P := Spec.pointAt (Fl.vals o) d t with hP
  have htK : Spec.norm d * |t'.1| ≤ 3 / 2 * K := by
    have h1 : |t'.1| ≤ |t| + |t'.1 - t| := by
      have := abs_sub_abs_le_abs_sub t'.1 t
      linarith
    have := mul_le_mul_of_nonneg_left h1 hn0
    linarith
  have hdd : Spec.dist (Fl.vals d') d ≤ F.unit * Spec.norm d := by
    have := dist_of_rel (a := Fl.vals d') (b := d) hu0.le le_rfl fun i => by
      rw [add_zero]; exact hd i
    linarith
  have hnd : Spec.norm (Fl.vals d') ≤ 513 / 512 * Spec.norm d := by
    have h2 := (abs_le.1 (norm_sub_norm (Fl.vals d') d)).2
    have h3 := mul_le_mul_of_nonneg_right hu1 hn0
    linarith
  -- the rounded product
  have h1 : Spec.dist (Fl.vals m) (fun i => t'.1 * (d' i).1) ≤ 2 * (F.unit * K) := by
    have k1 := dist_of_rel (a := Fl.vals m) (b := fun i => t'.1 * (d' i).1) hu0.le ht0 fun i => by
      have h := F.err (t'.1 * (d' i).1)
      have e : Fl.vals m i = F.rnd (t'.1 * (d' i).1) := by
        show (d' i * t').1 = _
        rw [Fl.val_mul]
        congr 1
        exact mul_comm _ _
      rw [e]
      exact h
    have k2 : Spec.norm (fun i => t'.1 * (d' i).1) = |t'.1| * Spec.norm (Fl.vals d') := norm_smul_abs _ _
    have k3 : |t'.1| * Spec.norm (Fl.vals d') ≤ |t'.1| * (513 / 512 * Spec.norm d) := mul_le_mul_of_nonneg_left hnd (abs_nonneg _)
    have k4 : |t'.1| * Spec.norm (Fl.vals d') ≤ 8 / 5 * K := by linarith
    rw [← k2] at k4
    have k5 := mul_le_mul_of_nonneg_left k4 hu0.le
    have k6 : F.unit * W ≤ F.unit * K := mul_le_mul_of_nonneg_left hWK hu0.le
    push_cast at k1
    linarith
  have h2 : Spec.dist (fun i => t'.1 * (d' i).1) (fun i => t'.1 * d i) ≤ 3 / 2 * (F.unit * K) := by
    have e : Spec.dist (fun i => t'.1 * (d' i).1) (fun i => t'.1 * d i) = |t'.1| * Spec.dist (Fl.vals d') d := by
      have := norm_smul_abs t'.1 (fun i => (d' i).1 - d i)
      have e2 : Spec.dist (Fl.vals d') d = Spec.norm (fun i => (d' i).1 - d i) := rfl
      rw [e2, ← this]
      unfold Spec.dist Spec.norm
      congr 1
      exact Finset.sum_congr rfl fun i _ => by ring
    rw [e]
    have k1 := mul_le_mul_of_nonneg_left hdd (abs_nonneg t'.1)
    have k2 := mul_le_mul_of_nonneg_left htK hu0.le
    linarith
  have h3 : Spec.dist (fun i => t'.1 * d i) (fun i => t * d i) ≤ 122 * (α * K) := by
    have e : Spec.dist (fun i => t'.1 * d i) (fun i => t * d i) = |t'.1 - t| * Spec.norm d := by
      rw [← norm_smul_abs]
      unfold Spec.dist Spec.norm
      congr 1
      exact Finset.sum_congr rfl fun i _ => by ring
    rw [e, mul_comm]
    exact ht'
  have h4 : Spec.dist (fun i => (o i).1 + (m i).1) P ≤ 126 * (α * K) - 1 / 2 * (α * K) := by
    have e : Spec.dist (fun i => (o i).1 + (m i).1) P = Spec.dist (Fl.vals m) (fun i => t * d i) := by
      unfold Spec.dist
      congr 1
      refine Finset.sum_congr rfl fun i _ => ?_
      congr 1
      show (o i).1 + (m i).1 - ((o i).1 + t * d i) = (m i).1 - t * d i
      ring
    rw [e]
    have k1 := dist_triangle' (Fl.vals m) (fun i => t'.1 * (d' i).1) (fun i => t * d i)
    have k2 := dist_triangle' (fun i => t'.1 * (d' i).1) (fun i => t'.1 * d i) (fun i => t * d i)
    linarith
  have h5 : Spec.dist (Fl.vals (vadd o m)) (fun i => (o i).1 + (m i).1) ≤ F.unit * Spec.norm (fun i => (o i).1 + (m i).1) := by
    have := dist_of_rel (a := Fl.vals (vadd o m)) (b := fun i => (o i).1 + (m i).1) hu0.le le_rfl fun i => by
      have h := Fl.add_rel (o i) (m i)
      rw [add_zero]
      exact h
    linarith
  have h6 : Spec.norm (fun i => (o i).1 + (m i).1) ≤ Spec.norm P + Spec.dist (fun i => (o i).1 + (m i).1) P := by
    have := (abs_le.1 (norm_sub_norm (fun i => (o i).1 + (m i).1) P)).2
    linarith
  have h7 := dist_triangle' (Fl.vals (vadd o m)) (fun i => (o i).1 + (m i).1) P
  set X := Spec.dist (fun i => (o i).1 + (m i).1) P with hX
  have h8 := mul_le_mul_of_nonneg_left h6 hu0.le
  have h9 : F.unit * X ≤ 1 / 512 * X := mul_le_mul_of_nonneg_right hu1 (dist_nonneg' _ _)
  linarith
end Verif
