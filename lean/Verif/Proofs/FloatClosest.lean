import Verif.Props.FloatLine

set_option linter.unusedSectionVars false

/-
Errors of the computed parameters of the closest points of two lines.
-/
namespace Verif
open Spec

variable {F : FloatFormat}

theorem dot_comm_fl {D : ℕ} (u v : Vec (Fl F) D) : dot u v = dot v u := by
  unfold dot
  congr 1
  funext s i
  rw [Fl.mul_comm_fl]

/-- The parameters of the closest points. -/
theorem closest_critical {D : ℕ} {w d e : Vec ℝ D} (hg : Spec.gram d e ≠ 0) {t s : ℝ}
    (ht : t = ((d ⬝ᵥ e) * (e ⬝ᵥ w) - (e ⬝ᵥ e) * (d ⬝ᵥ w)) / Spec.gram d e) (hs : s = ((d ⬝ᵥ d) * (e ⬝ᵥ w) - (d ⬝ᵥ e) * (d ⬝ᵥ w)) / Spec.gram d e) :
    (w + t • d - s • e) ⬝ᵥ d = 0 ∧ (w + t • d - s • e) ⬝ᵥ e = 0 := by
  subst ht hs
  constructor
  all_goals
    simp only [sub_dotProduct, add_dotProduct, smul_dotProduct, smul_eq_mul]
    simp only [dotProduct_comm w d, dotProduct_comm w e, dotProduct_comm e d]
    field_simp
    rw [gram_eq]; ring

/-- How far the closest points are away. -/
theorem closest_param_le {D : ℕ} {w d e : Vec ℝ D} :
    |(d ⬝ᵥ e) * (e ⬝ᵥ w) - (e ⬝ᵥ e) * (d ⬝ᵥ w)| ≤ Spec.norm e * Real.sqrt (Spec.gram d e) * Spec.norm w := by
  set v : Vec ℝ D := (e ⬝ᵥ e) • d - (d ⬝ᵥ e) • e with hv
  have h1 : (d ⬝ᵥ e) * (e ⬝ᵥ w) - (e ⬝ᵥ e) * (d ⬝ᵥ w) = -(v ⬝ᵥ w) := by
    rw [hv]; simp only [sub_dotProduct, smul_dotProduct, smul_eq_mul]; ring
  have h2 : Spec.norm v ^ 2 = Spec.norm e ^ 2 * Spec.gram d e := by
    rw [← dp_self_norm, ← dp_self_norm, gram_eq, hv]
    simp only [sub_dotProduct, smul_dotProduct, smul_eq_mul, dotProduct_sub, dotProduct_smul, dotProduct_comm e d]
    ring
  have hg : 0 ≤ Spec.gram d e := by
    unfold Spec.gram
    rw [sub_nonneg]
    exact Finset.sum_mul_sq_le_sq_mul_sq _ _ _
  have h3 : Spec.norm v = Spec.norm e * Real.sqrt (Spec.gram d e) := by
    rw [← Real.sqrt_sq (norm_nonneg' v), h2, Real.sqrt_mul (sq_nonneg _), Real.sqrt_sq (norm_nonneg' e)]
  rw [h1, abs_neg, ← h3]
  exact abs_dp_le v w

/-- A computed difference of two products. -/
theorem det_gen {p q r s : Fl F} {x y z w X Y α β : ℝ} (hu1 : F.unit ≤ 1 / 512) (hp : |p.1 - x| ≤ α) (hq : |q.1 - y| ≤ β) (hr : |r.1 - z| ≤ α)
    (hs : |s.1 - w| ≤ β) (hx : |x| ≤ X) (hy : |y| ≤ Y) (hz : |z| ≤ X) (hw : |w| ≤ Y) :
    |(p * q - r * s).1 - (x * y - z * w)|
      ≤ 2 * (101 / 100 * (α * Y + X * β + α * β) + 101 / 50 * (F.unit * (X * Y)) + 101 / 100 * F.tiny) := by
  have hu0 := F.unit_pos
  have ht0 := F.tiny_nonneg
  have hα : 0 ≤ α := (abs_nonneg _).trans hp
  have hβ : 0 ≤ β := (abs_nonneg _).trans hq
  have hX : 0 ≤ X := (abs_nonneg _).trans hx
  have hY : 0 ≤ Y := (abs_nonneg _).trans hy
  have h1 := mul_err hp hq hx hy
  have h2 := mul_err hr hs hz hw
  have h3 := Fl.sub_rel (p * q) (r * s)
  set E := α * Y + X * β + α * β with hE
  have hE0 : 0 ≤ E := by positivity
  have hXY : 0 ≤ X * Y := by positivity
  have x1 : |x * y| ≤ X * Y := by rw [abs_mul]; exact mul_le_mul hx hy (abs_nonneg _) hX
  have x2 : |z * w| ≤ X * Y := by rw [abs_mul]; exact mul_le_mul hz hw (abs_nonneg _) hX
  have a1 := abs_le_of_close h1 x1
  have a2 := abs_le_of_close h2 x2
  set P := (p * q).1
  set Q := (r * s).1
  have h4 : |P - Q| ≤ |P| + |Q| := abs_sub _ _
  have h5 := mul_le_mul_of_nonneg_left (h4.trans (add_le_add a1 a2)) hu0.le
  have h6 : |(p * q - r * s).1 - (x * y - z * w)| ≤ |(p * q - r * s).1 - (P - Q)| + (|P - x * y| + |Q - z * w|) := by
    rw [show (p * q - r * s).1 - (x * y - z * w) = ((p * q - r * s).1 - (P - Q)) + ((P - x * y) - (Q - z * w)) by ring]
    exact (abs_add_le _ _).trans (add_le_add_right (abs_sub _ _) _)
  have u1 : F.unit * E ≤ 1 / 512 * E := mul_le_mul_of_nonneg_right hu1 hE0
  have u2 : F.unit * (F.unit * E) ≤ 1 / 512 * (1 / 512 * E) := mul_le_mul hu1 u1 (by positivity) (by norm_num)
  have u3 : F.unit * (F.unit * (X * Y)) ≤ 1 / 512 * (F.unit * (X * Y)) := mul_le_mul_of_nonneg_right hu1 (by positivity)
  have u4 : F.unit * F.tiny ≤ 1 / 512 * F.tiny := mul_le_mul_of_nonneg_right hu1 ht0
  have u5 : 0 ≤ F.unit * (X * Y) := by positivity
  linarith

/-- The computed parameter. -/
theorem closest_quot {n d : Fl F} {T G s W K ω t : ℝ} (hu1 : F.unit ≤ 1 / 512) (hn : |n.1 - T| ≤ 43 * (F.unit * W) + 25 * F.tiny)
    (hd : |d.1 - G| ≤ 45 * F.unit) (hs0 : 0 < s) (hG : s ^ 2 ≤ G) (hs1 : s ≤ 16 / 15) (hu : 256 * F.unit ≤ s ^ 2) (hW : W = s * K) (hK0 : 0 ≤ K)
    (hT : T = t * G) (htK : |t| ≤ 33 / 32 * K) (hω : F.tiny * (1 / s ^ 2 + 1) ≤ ω) :
    |(n / d).1 - t| ≤ 126 * (F.unit / s ^ 2 * K) + 36 * ω := by
  have hu0 := F.unit_pos
  have ht0 := F.tiny_nonneg
  have hq : 0 < s ^ 2 := by positivity
  have hG0 : 0 < G := by linarith
  obtain ⟨d1, d2⟩ := abs_le.1 hd
  have hd3 : 3 / 4 * G ≤ d.1 := by linarith
  have hd0 : 0 < d.1 := by linarith
  have huK : 0 ≤ F.unit * K := by positivity
  have hω1 : F.tiny / s ^ 2 ≤ ω := by
    have e : F.tiny / s ^ 2 = F.tiny * (1 / s ^ 2) := by ring
    linarith
  have hω2 : F.tiny ≤ ω := by
    have : 0 ≤ F.tiny * (1 / s ^ 2) := by positivity
    linarith
  have hω0 : 0 ≤ ω := ht0.trans hω2
  set x := n.1 / d.1 with hx
  have e : (x - t) * d.1 = (n.1 - T) - t * (d.1 - G) := by rw [hx, hT]; field_simp; ring
  have h1 : |x - t| * d.1 ≤ |n.1 - T| + |t| * |d.1 - G| := by
    rw [← abs_of_pos hd0, ← abs_mul, e, ← abs_mul, abs_of_pos hd0]; exact abs_sub _ _
  have h2 : |t| * |d.1 - G| ≤ 33 / 32 * K * (45 * F.unit) := mul_le_mul htK hd (abs_nonneg _) (by positivity)
  have h3 : |x - t| * (3 / 4 * s ^ 2) ≤ |x - t| * d.1 := mul_le_mul_of_nonneg_left (by linarith) (abs_nonneg _)
  have h4 : F.unit * W ≤ F.unit * (16 / 15 * K) :=
    mul_le_mul_of_nonneg_left (by rw [hW]; exact mul_le_mul_of_nonneg_right hs1 hK0) hu0.le
  have h5 : |x - t| * s ^ 2 ≤ (124 * (F.unit / s ^ 2 * K) + 34 * (F.tiny / s ^ 2)) * s ^ 2 := by
    have e2 : (124 * (F.unit / s ^ 2 * K) + 34 * (F.tiny / s ^ 2)) * s ^ 2 = 124 * (F.unit * K) + 34 * F.tiny := by field_simp
    rw [e2]
    linarith
  have h6 := le_of_mul_le_mul_right h5 hq
  have ha1 : F.unit / s ^ 2 ≤ 1 / 256 := by rw [div_le_iff₀ hq]; linarith
  have hs2 : s ^ 2 ≤ 8 / 7 := (pow_le_pow_left₀ hs0.le hs1 2).trans (by norm_num)
  have ha2 : F.unit ≤ 8 / 7 * (F.unit / s ^ 2) := by
    rw [mul_div_assoc', le_div_iff₀ hq]
    have := mul_le_mul_of_nonneg_left hs2 hu0.le
    linarith
  have haK : F.unit / s ^ 2 * K ≤ 1 / 256 * K := mul_le_mul_of_nonneg_right ha1 hK0
  have huK2 : F.unit * K ≤ 8 / 7 * (F.unit / s ^ 2 * K) := by
    have := mul_le_mul_of_nonneg_right ha2 hK0
    linarith
  have hB := F.err x
  have hv : (n / d).1 = F.rnd x := Fl.val_div _ _
  rw [hv]
  have hxK : |x| ≤ 31 / 20 * K + 34 * ω := by
    have h7 : |x| ≤ |t| + |x - t| := by
      have := abs_sub_abs_le_abs_sub x t
      linarith
    linarith
  have h8 := mul_le_mul_of_nonneg_left hxK hu0.le
  have h9 : F.unit * ω ≤ 1 / 512 * ω := mul_le_mul_of_nonneg_right hu1 hω0
  have h10 : |F.rnd x - t| ≤ |F.rnd x - x| + |x - t| := by
    rw [show F.rnd x - t = (F.rnd x - x) + (x - t) by ring]; exact abs_add_le _ _
  linarith

/-- The computed parameters of the closest points of two lines with directions of about unit length. -/
theorem closest_err [Tol (Fl F)] (lo a ro b : Vec (Fl F) 3) (eps : Fl F) (hp : 9 ≤ F.prec) (hmin : ∀ k, F.emin = some k → k ≤ -4 * (F.prec : ℤ))
    (ha : Spec.norm (Fl.vals a) ≤ 33 / 32) (hb : Spec.norm (Fl.vals b) ≤ 33 / 32) :
    |(dot a a * dot b b - dot a b * dot a b).1 - Spec.gram (Fl.vals a) (Fl.vals b)| ≤ 45 * F.unit ∧
    ∀ s K ω : ℝ, 0 < s → s ^ 2 ≤ Spec.gram (Fl.vals a) (Fl.vals b) → 256 * F.unit ≤ s ^ 2 → K = Spec.dist (Fl.vals lo) (Fl.vals ro) / s →
      F.tiny * (1 / s ^ 2 + 1) ≤ ω → (∀ x : Fl F, 1 / 2 * s ^ 2 ≤ |x.1| → Tol.isZero x eps = false) →
      ∃ par t z, closestPointOnLineParameters lo a ro b eps = some par ∧
        ((Fl.vals lo - Fl.vals ro) + t • Fl.vals a - z • Fl.vals b) ⬝ᵥ Fl.vals a = 0 ∧
        ((Fl.vals lo - Fl.vals ro) + t • Fl.vals a - z • Fl.vals b) ⬝ᵥ Fl.vals b = 0 ∧
        |t| ≤ 33 / 32 * K ∧ |z| ≤ 33 / 32 * K ∧
        |par.t.1 - t| ≤ 126 * (F.unit / s ^ 2 * K) + 36 * ω ∧ |par.s.1 - z| ≤ 126 * (F.unit / s ^ 2 * K) + 36 * ω := by
  obtain ⟨ht, hu1⟩ := tiny_small hmin hp
  have hu0 := F.unit_pos
  have ht0 := F.tiny_nonneg
  have htt := tiny_of_emin (F := F) fun k hk => by have := hmin k hk; omega
  have hD : 64 * (3 + 2) ≤ 2 ^ F.prec := le_trans (by norm_num) (Nat.pow_le_pow_right (by norm_num) hp)
  have ex : ∀ (a : Vec (Fl F) 3) (i : Fin 3), |(a i).1 - Fl.vals a i| ≤ F.unit * |Fl.vals a i| := fun a i => by
    show |(a i).1 - (a i).1| ≤ _
    rw [sub_self, abs_zero]; positivity
  have htu : F.tiny ≤ 1 / 512 * F.unit := by
    have := mul_le_mul_of_nonneg_right hu1 hu0.le
    linarith
  -- scalar products of the directions
  have hdir : ∀ p q : Vec (Fl F) 3, Spec.norm (Fl.vals p) ≤ 33 / 32 → Spec.norm (Fl.vals q) ≤ 33 / 32 →
      |(dot p q).1 - Fl.vals p ⬝ᵥ Fl.vals q| ≤ 9 * F.unit ∧ |Fl.vals p ⬝ᵥ Fl.vals q| ≤ 16 / 15 := by
    intro p q hp hq
    have h1 := dot_abs p q (Fl.vals p) (ex p) hD htt
    have h2 := mul_le_mul hp hq (norm_nonneg' _) (by norm_num)
    have h3 := mul_le_mul_of_nonneg_left h2 hu0.le
    push_cast at h1
    refine ⟨?_, (abs_dp_le _ _).trans (h2.trans (by norm_num))⟩
    change |_ - Fl.vals p ⬝ᵥ Fl.vals q| ≤ _ at h1
    linarith
  obtain ⟨haa, haa1⟩ := hdir a a ha ha
  obtain ⟨hab, hab1⟩ := hdir a b ha hb
  obtain ⟨hbb, hbb1⟩ := hdir b b hb hb
  have hgram : Spec.gram (Fl.vals a) (Fl.vals b)
      = (Fl.vals a ⬝ᵥ Fl.vals a) * (Fl.vals b ⬝ᵥ Fl.vals b) - (Fl.vals a ⬝ᵥ Fl.vals b) * (Fl.vals a ⬝ᵥ Fl.vals b) := gram_eq _ _
  have hden : |(dot a a * dot b b - dot a b * dot a b).1 - Spec.gram (Fl.vals a) (Fl.vals b)| ≤ 45 * F.unit := by
    rw [hgram]
    refine (det_gen hu1 haa hbb hab hab haa1 hbb1 hab1 hab1).trans ?_
    have h1 : F.unit * F.unit ≤ 1 / 512 * F.unit := mul_le_mul_of_nonneg_right hu1 hu0.le
    linarith
  refine ⟨hden, ?_⟩
  intro s K ω hs0 hs hu hK hω hz
  -- scalar products with the difference of the origins
  set w : Vec ℝ 3 := Fl.vals lo - Fl.vals ro with hw
  have hww : ∀ i, |(vsub lo ro i).1 - w i| ≤ F.unit * |w i| := fun i => Fl.sub_rel _ _
  set W := Spec.dist (Fl.vals lo) (Fl.vals ro) with hW
  have hWw : Spec.norm w = W := rfl
  have hW0 : 0 ≤ W := dist_nonneg' _ _
  have horg : ∀ p : Vec (Fl F) 3, Spec.norm (Fl.vals p) ≤ 33 / 32 →
      |(dot p (vsub lo ro)).1 - Fl.vals p ⬝ᵥ w| ≤ 33 / 4 * (F.unit * W) + 10 * F.tiny ∧ |Fl.vals p ⬝ᵥ w| ≤ 33 / 32 * W := by
    intro p hp
    have h1 := dot_abs (vsub lo ro) p w hww hD htt
    rw [hWw] at h1
    have h2 := mul_le_mul_of_nonneg_left hp hW0
    have h3 := mul_le_mul_of_nonneg_left h2 hu0.le
    push_cast at h1
    have h4 : ∑ i, w i * (p i).1 = Fl.vals p ⬝ᵥ w := by rw [dotProduct_comm]; rfl
    rw [h4, dot_comm_fl] at h1
    refine ⟨by linarith, ?_⟩
    refine (abs_dp_le _ _).trans ?_
    rw [hWw]
    exact mul_le_mul_of_nonneg_right hp hW0
  obtain ⟨had, had1⟩ := horg a ha
  obtain ⟨hbe, hbe1⟩ := horg b hb
  have hnum : ∀ {p q r t : Fl F} {x y z v : ℝ}, |p.1 - x| ≤ 9 * F.unit → |q.1 - y| ≤ 33 / 4 * (F.unit * W) + 10 * F.tiny → |r.1 - z| ≤ 9 * F.unit →
      |t.1 - v| ≤ 33 / 4 * (F.unit * W) + 10 * F.tiny → |x| ≤ 16 / 15 → |y| ≤ 33 / 32 * W → |z| ≤ 16 / 15 → |v| ≤ 33 / 32 * W →
      |(p * q - r * t).1 - (x * y - z * v)| ≤ 43 * (F.unit * W) + 25 * F.tiny := by
    intro p q r t x y z v h1 h2 h3 h4 h5 h6 h7 h8
    refine (det_gen hu1 h1 h2 h3 h4 h5 h6 h7 h8).trans ?_
    have k0 : 0 ≤ F.unit * W := by positivity
    have k1 : F.unit * (F.unit * W) ≤ 1 / 512 * (F.unit * W) := mul_le_mul_of_nonneg_right hu1 k0
    have k2 : F.unit * F.tiny ≤ 1 / 512 * F.tiny := mul_le_mul_of_nonneg_right hu1 ht0
    linarith
  set G := Spec.gram (Fl.vals a) (Fl.vals b) with hG
  have hq : 0 < s ^ 2 := by positivity
  have hG0 : 0 < G := by linarith
  have hs1 : s ≤ 16 / 15 := by
    have h1 : s ^ 2 ≤ (16 / 15) ^ 2 := by
      refine hs.trans ?_
      rw [hgram]
      have h2 : (Fl.vals a ⬝ᵥ Fl.vals a) * (Fl.vals b ⬝ᵥ Fl.vals b) ≤ 16 / 15 * (16 / 15) := by
        refine mul_le_mul (le_of_abs_le haa1) (le_of_abs_le hbb1) (dp_self_nonneg _) (by norm_num)
      have h3 := mul_self_nonneg (Fl.vals a ⬝ᵥ Fl.vals b)
      linarith
    exact le_of_sq_le_sq h1 (by norm_num)
  have hK0 : 0 ≤ K := by rw [hK]; positivity
  have hWK : W = s * K := by rw [hK]; field_simp
  have hsG : s ≤ Real.sqrt G := Real.le_sqrt_of_sq_le hs
  have hsq0 : 0 < Real.sqrt G := by linarith
  have hGG : G = Real.sqrt G * Real.sqrt G := (Real.mul_self_sqrt hG0.le).symm
  have hpar : ∀ {T m : ℝ}, |T| ≤ m * Real.sqrt G * W → m ≤ 33 / 32 → |T / G| ≤ 33 / 32 * K := by
    intro T m h1 h2
    rw [abs_div, abs_of_pos hG0, div_le_iff₀ hG0]
    have h3 : m * Real.sqrt G * W ≤ 33 / 32 * Real.sqrt G * W :=
      mul_le_mul_of_nonneg_right (mul_le_mul_of_nonneg_right h2 hsq0.le) hW0
    have h4 : Real.sqrt G * W ≤ Real.sqrt G * (Real.sqrt G * K) := by
      rw [hWK]; exact mul_le_mul_of_nonneg_left (mul_le_mul_of_nonneg_right hsG hK0) hsq0.le
    have e : Real.sqrt G * (Real.sqrt G * K) = K * G := by rw [← mul_assoc, ← hGG, mul_comm]
    rw [e] at h4
    linarith
  set T := (Fl.vals a ⬝ᵥ Fl.vals b) * (Fl.vals b ⬝ᵥ w) - (Fl.vals b ⬝ᵥ Fl.vals b) * (Fl.vals a ⬝ᵥ w) with hT
  set Z := (Fl.vals a ⬝ᵥ Fl.vals a) * (Fl.vals b ⬝ᵥ w) - (Fl.vals a ⬝ᵥ Fl.vals b) * (Fl.vals a ⬝ᵥ w) with hZ
  have htK : |T / G| ≤ 33 / 32 * K := hpar (by rw [← hWw]; exact closest_param_le) hb
  have hzK : |Z / G| ≤ 33 / 32 * K := hpar (by
    have h1 := closest_param_le (w := w) (d := Fl.vals b) (e := Fl.vals a)
    rw [gram_comm, ← hG, hWw, dotProduct_comm (Fl.vals b) (Fl.vals a)] at h1
    rw [← abs_neg, show -Z = (Fl.vals a ⬝ᵥ Fl.vals b) * (Fl.vals a ⬝ᵥ w) - (Fl.vals a ⬝ᵥ Fl.vals a) * (Fl.vals b ⬝ᵥ w) by rw [hZ]; ring]
    exact h1) ha
  obtain ⟨c1, c2⟩ := closest_critical (w := w) hG0.ne' rfl rfl
  have hdd : 1 / 2 * s ^ 2 ≤ |(dot a a * dot b b - dot a b * dot a b).1| := by
    obtain ⟨h1, -⟩ := abs_le.1 hden
    exact le_trans (by linarith) (le_abs_self _)
  refine ⟨⟨(dot a b * dot b (vsub lo ro) - dot b b * dot a (vsub lo ro)) / (dot a a * dot b b - dot a b * dot a b),
    (dot a a * dot b (vsub lo ro) - dot a b * dot a (vsub lo ro)) / (dot a a * dot b b - dot a b * dot a b)⟩, T / G, Z / G, ?_, c1, c2, htK, hzK, ?_, ?_⟩
  · unfold closestPointOnLineParameters
    simp only
    rw [hz _ hdd]
    rfl
  · exact closest_quot hu1 (hnum hab hbe hbb had hab1 hbe1 hbb1 had1) hden hs0 hs hs1 hu hWK hK0 (by field_simp; rfl) htK hω
  · exact closest_quot hu1 (hnum haa hbe hab had haa1 hbe1 hab1 had1) hden hs0 hs hs1 hu hWK hK0 (by field_simp; rfl) hzK hω

/-- The computed point at a parameter. -/
theorem param_point_err (o d : Vec (Fl F) 3) (t' : Fl F) {t a K ω : ℝ} (hu1 : F.unit ≤ 1 / 512) (hd : Spec.norm (Fl.vals d) ≤ 33 / 32) (hK0 : 0 ≤ K)
    (ha : a ≤ 1 / 256) (hua : F.unit ≤ 8 / 7 * a) (hω : F.tiny ≤ ω) (ht : |t| ≤ 33 / 32 * K) (ht' : |t'.1 - t| ≤ 126 * (a * K) + 36 * ω) :
    Spec.dist (Fl.vals (vadd o (vscale d t'))) (Spec.pointAt (Fl.vals o) (Fl.vals d) t)
      ≤ F.unit * Spec.norm (Spec.pointAt (Fl.vals o) (Fl.vals d) t) + 133 * (a * K) + 43 * ω := by
  have hu0 := F.unit_pos
  have ht0 := F.tiny_nonneg
  have hω0 : 0 ≤ ω := ht0.trans hω
  have haK : a * K ≤ 1 / 256 * K := mul_le_mul_of_nonneg_right ha hK0
  have huK : F.unit * K ≤ 8 / 7 * (a * K) := by
    have := mul_le_mul_of_nonneg_right hua hK0
    linarith
  have huK0 : 0 ≤ F.unit * K := by positivity
  have huω : F.unit * ω ≤ 1 / 512 * ω := mul_le_mul_of_nonneg_right hu1 hω0
  set m : Vec (Fl F) 3 := vscale d t' with hm
  set y : Vec ℝ 3 := fun i => t'.1 * (d i).1 with hy
  set P := Spec.pointAt (Fl.vals o) (Fl.vals d) t with hP
  have hny : Spec.norm y ≤ 33 / 32 * |t'.1| := by
    have e : Spec.norm y = |t'.1| * Spec.norm (Fl.vals d) := by
      rw [← norm_abs', ← norm_abs' (Fl.vals d), ← norm_smul' (abs_nonneg _)]
      congr 1
      funext i
      exact abs_mul _ _
    rw [e, mul_comm]
    exact mul_le_mul_of_nonneg_right hd (abs_nonneg _)
  have htK : |t'.1| ≤ 31 / 20 * K + 36 * ω := by
    have h1 : |t'.1| ≤ |t| + |t'.1 - t| := by
      have := abs_sub_abs_le_abs_sub t'.1 t
      linarith
    linarith
  have h1 : Spec.dist (Fl.vals m) y ≤ F.unit * Spec.norm y + (3 + 2) * F.tiny := by
    have := dist_of_rel (a := Fl.vals m) (b := y) hu0.le ht0 fun i => by
      have h := F.err (t'.1 * (d i).1)
      have e : Fl.vals m i = F.rnd (t'.1 * (d i).1) := by
        show (d i * t').1 = _
        rw [Fl.val_mul]
        congr 1
        exact mul_comm _ _
      rw [e]
      exact h
    exact_mod_cast this
  have h2 : Spec.dist (Fl.vals (vadd o m)) (fun i => (o i).1 + (m i).1) ≤ F.unit * Spec.norm (fun i => (o i).1 + (m i).1) := by
    have := dist_of_rel (a := Fl.vals (vadd o m)) (b := fun i => (o i).1 + (m i).1) hu0.le le_rfl fun i => by
      have h := Fl.add_rel (o i) (m i)
      rw [add_zero]
      exact h
    linarith
  have h3 : Spec.dist (fun i => (o i).1 + (m i).1) P ≤ Spec.dist (Fl.vals m) y + 33 / 32 * |t'.1 - t| := by
    have e : Spec.dist (fun i => (o i).1 + (m i).1) P = Spec.norm (fun i => (Fl.vals m i - y i) + (t'.1 - t) * (d i).1) := by
      unfold Spec.dist Spec.norm
      congr 1
      refine Finset.sum_congr rfl fun i _ => ?_
      congr 1
      show (o i).1 + (m i).1 - ((o i).1 + t * (d i).1) = ((m i).1 - t'.1 * (d i).1) + (t'.1 - t) * (d i).1
      ring
    rw [e]
    refine (norm_add_le' _ _).trans (add_le_add le_rfl ?_)
    have e2 : Spec.norm (fun i => (t'.1 - t) * (d i).1) = |t'.1 - t| * Spec.norm (Fl.vals d) := by
      rw [← norm_abs', ← norm_abs' (Fl.vals d), ← norm_smul' (abs_nonneg _)]
      congr 1
      funext i
      exact abs_mul _ _
    rw [e2, mul_comm]
    exact mul_le_mul_of_nonneg_right hd (abs_nonneg _)
  have h4 : Spec.norm (fun i => (o i).1 + (m i).1) ≤ Spec.norm P + Spec.dist (fun i => (o i).1 + (m i).1) P := by
    have := (abs_le.1 (norm_sub_norm (fun i => (o i).1 + (m i).1) P)).2
    linarith
  have h5 := dist_triangle' (Fl.vals (vadd o m)) (fun i => (o i).1 + (m i).1) P
  have h6 := mul_le_mul_of_nonneg_left (hny.trans (mul_le_mul_of_nonneg_left htK (by norm_num))) hu0.le
  set X := Spec.dist (fun i => (o i).1 + (m i).1) P with hX
  have hX1 : X ≤ 132 * (a * K) + 42 * ω + 2 / 5 * ω := by linarith
  have h7 := mul_le_mul_of_nonneg_left h4 hu0.le
  have h8 : F.unit * X ≤ 1 / 512 * X := mul_le_mul_of_nonneg_right hu1 (dist_nonneg' _ _)
  linarith
end Verif
