import Verif.Proofs.FloatVec
import Verif.Props.FloatDistance
import Verif.Model.Intersect

set_option linter.unusedSectionVars false

/-
C105: intersections of planes with lines, rays and segments in floating point.
-/
namespace Verif
open Spec

section
variable {F : FloatFormat}

/-- The computed parameter. `K = W / s` bounds the way from `l` to the plane along `d`. -/
theorem plane_param_err (o n l d' : Vec (Fl F) 3) (d : Vec ℝ 3) (hd : ∀ i, |(d' i).1 - d i| ≤ F.unit * |d i|) (hp : 9 ≤ F.prec)
    (ht : F.tiny ≤ F.unit * F.unit) {L s W K ω : ℝ} (hL : L = Spec.norm d) (hL0 : 0 < L) (htL : F.tiny ≤ F.unit * F.unit * L)
    (hn : Spec.norm (fun i => (n i).1) ≤ 33 / 32) (hs0 : 0 < s) (hs : s * L ≤ |∑ i, d i * (n i).1|) (hu : 64 * F.unit ≤ s)
    (hW : W = Spec.norm (fun i => (o i).1 - (l i).1)) (hK : K = W / s) (hω : F.tiny * (1 / s + L + 1) ≤ ω) :
    3 / 4 * (s * L) ≤ |(dot d' n).1| ∧
    ∀ t, t = (∑ i, ((o i).1 - (l i).1) * (n i).1) / (∑ i, d i * (n i).1) →
      L * |t| ≤ 33 / 32 * K ∧
      L * |(dot (vsub o l) n / dot d' n).1 - t| ≤ 87 / 4 * (F.unit / s * K) + 27 / 2 * ω ∧
      |(dot (vsub o l) n / dot d' n).1 - t| * |∑ i, d i * (n i).1| ≤ 22 * (F.unit * K) + 14 * ω := by
  have hD : 64 * (3 + 2) ≤ 2 ^ F.prec := le_trans (by norm_num) (Nat.pow_le_pow_right (by norm_num) hp)
  have hu0 := F.unit_pos
  have ht0 := F.tiny_nonneg
  have hN := dot_abs (vsub o l) n (fun i => (o i).1 - (l i).1) (fun i => Fl.sub_rel _ _) hD ht
  have hDd := dot_abs d' n d hd hD ht
  obtain ⟨f1, f2, f3, f4⟩ := dim_facts (D := 3) hD ht
  change _ ≤ 8 / 5 * (_ * (_ * Spec.norm (fun i => (n i).1))) + _ at hN hDd
  rw [← hW] at hN
  rw [← hL] at hDd
  have hDn := abs_dp_le d (fun i => (n i).1)
  have hNn := abs_dp_le (fun i => (o i).1 - (l i).1) (fun i => (n i).1)
  rw [← hL] at hDn
  rw [← hW] at hNn
  push_cast at hN hDd f1 f2
  have hu1 : F.unit ≤ 1 / 320 := by linarith
  set m := Spec.norm (fun i => (n i).1) with hm
  have hm0 : 0 ≤ m := norm_nonneg' _
  have hW0 : 0 ≤ W := by rw [hW]; exact norm_nonneg' _
  set Δ := ∑ i, d i * (n i).1 with hΔ
  set N := ∑ i, ((o i).1 - (l i).1) * (n i).1 with hNd
  set N' := (dot (vsub o l) n).1 with hN'
  set Δ' := (dot d' n).1 with hΔ'
  have hsL : 0 < s * L := mul_pos hs0 hL0
  have hΔ0 : 0 < |Δ| := lt_of_lt_of_le hsL hs
  have hΔ1 : |Δ| ≤ 33 / 32 * L := by
    have := mul_le_mul_of_nonneg_left hn hL0.le
    linarith
  have hs1 : s ≤ 33 / 32 := by
    have : s * L ≤ 33 / 32 * L := by linarith
    exact le_of_mul_le_mul_right this hL0
  have hK0 : 0 ≤ K := by rw [hK]; positivity
  have hWK : W = s * K := by rw [hK]; field_simp
  have hω1 : F.tiny ≤ ω := by
    have h1 : 0 ≤ F.tiny * (1 / s + L) := by positivity
    linarith
  have hω2 : F.tiny / s ≤ ω := by
    have h1 : 0 ≤ F.tiny * (L + 1) := by positivity
    have h2 : F.tiny / s = F.tiny * (1 / s) := by ring
    linarith
  have hω3 : F.tiny * L ≤ ω := by
    have h1 : 0 ≤ F.tiny * (1 / s + 1) := by positivity
    linarith
  have hω0 : 0 ≤ ω := ht0.trans hω1
  have huK : 0 ≤ F.unit * K := by positivity
  have huL : 0 ≤ F.unit * L := by positivity
  -- numerator and denominator
  have hN3 : |N' - N| ≤ 33 / 4 * (F.unit * W) + 10 * F.tiny := by
    have h1 : F.unit * (W * m) ≤ F.unit * (W * (33 / 32)) := mul_le_mul_of_nonneg_left (mul_le_mul_of_nonneg_left hn hW0) hu0.le
    linarith
  have hD2 : |Δ' - Δ| ≤ 17 / 2 * (F.unit * L) := by
    have h1 : F.unit * (L * m) ≤ F.unit * (L * (33 / 32)) := mul_le_mul_of_nonneg_left (mul_le_mul_of_nonneg_left hn hL0.le) hu0.le
    have h2 : F.unit * (F.unit * L) ≤ 1 / 320 * (F.unit * L) := mul_le_mul_of_nonneg_right hu1 huL
    linarith
  have huL2 : F.unit * L ≤ 1 / 64 * |Δ| := by
    have h1 : 64 * F.unit * L ≤ s * L := mul_le_mul_of_nonneg_right hu hL0.le
    linarith
  have hD3 : 55 / 64 * |Δ| ≤ |Δ'| := by
    have h1 : |Δ| ≤ |Δ'| + |Δ' - Δ| := by
      have := abs_sub_abs_le_abs_sub Δ Δ'
      rw [abs_sub_comm] at this
      linarith
    linarith
  have hD4 : 0 < |Δ'| := by linarith
  refine ⟨by linarith, ?_⟩
  intro t htd
  have hΔne : Δ ≠ 0 := abs_pos.1 hΔ0
  have hΔ'ne : Δ' ≠ 0 := abs_pos.1 hD4
  have htN : N = t * Δ := by rw [htd]; field_simp
  -- the exact parameter
  have htK : L * |t| ≤ 33 / 32 * K := by
    have h1 : |t| * |Δ| ≤ W * (33 / 32) := by
      rw [← abs_mul, ← htN]; exact hNn.trans (mul_le_mul_of_nonneg_left hn hW0)
    have h2 : |t| * (s * L) ≤ |t| * |Δ| := mul_le_mul_of_nonneg_left hs (abs_nonneg _)
    have h3 : (L * |t|) * s ≤ (33 / 32 * K) * s := by rw [hWK] at h1; linarith
    exact le_of_mul_le_mul_right h3 hs0
  refine ⟨htK, ?_⟩
  -- the quotient of the computed numbers
  set x := N' / Δ' with hx
  have hA : |x - t| * |Δ| ≤ 81 / 4 * (F.unit * K) + 12 * F.tiny := by
    have e : (x - t) * Δ' = (N' - N) - t * (Δ' - Δ) := by rw [hx, htN]; field_simp; ring
    have h1 : |x - t| * |Δ'| ≤ |N' - N| + |t| * |Δ' - Δ| := by
      rw [← abs_mul, e, ← abs_mul]; exact abs_sub _ _
    have h2 : |t| * |Δ' - Δ| ≤ |t| * (17 / 2 * (F.unit * L)) := mul_le_mul_of_nonneg_left hD2 (abs_nonneg _)
    have h3 : F.unit * (L * |t|) ≤ F.unit * (33 / 32 * K) := mul_le_mul_of_nonneg_left htK hu0.le
    have h4 : |x - t| * (55 / 64 * |Δ|) ≤ |x - t| * |Δ'| := mul_le_mul_of_nonneg_left hD3 (abs_nonneg _)
    have h5 : F.unit * W ≤ F.unit * (33 / 32 * K) :=
      mul_le_mul_of_nonneg_left (by rw [hWK]; exact mul_le_mul_of_nonneg_right hs1 hK0) hu0.le
    linarith
  have hA' : L * |x - t| ≤ 81 / 4 * (F.unit / s * K) + 12 * ω := by
    have h1 : |x - t| * (s * L) ≤ 81 / 4 * (F.unit * K) + 12 * F.tiny := (mul_le_mul_of_nonneg_left hs (abs_nonneg _)).trans hA
    have e : (81 / 4 * (F.unit / s * K) + 12 * (F.tiny / s)) * s = 81 / 4 * (F.unit * K) + 12 * F.tiny := by field_simp
    have h2 : (L * |x - t|) * s ≤ (81 / 4 * (F.unit / s * K) + 12 * (F.tiny / s)) * s := by rw [e]; linarith
    have h3 := le_of_mul_le_mul_right h2 hs0
    linarith
  have ha1 : F.unit / s ≤ 1 / 64 := by rw [div_le_iff₀ hs0]; linarith
  have ha2 : F.unit ≤ 33 / 32 * (F.unit / s) := by
    rw [mul_div_assoc', le_div_iff₀ hs0]
    have := mul_le_mul_of_nonneg_left hs1 hu0.le
    linarith
  have haK : F.unit / s * K ≤ 1 / 64 * K := mul_le_mul_of_nonneg_right ha1 hK0
  have huK2 : F.unit * K ≤ 33 / 32 * (F.unit / s * K) := by
    have := mul_le_mul_of_nonneg_right ha2 hK0
    linarith
  have haK0 : 0 ≤ F.unit / s * K := by positivity
  have hrnd : (dot (vsub o l) n / dot d' n).1 = F.rnd x := Fl.val_div _ _
  have hB : |F.rnd x - x| ≤ F.unit * |x| + F.tiny := F.err x
  have hxt : L * |x| ≤ 87 / 64 * K + 12 * ω := by
    have h1 : |x| ≤ |t| + |x - t| := by
      have := abs_sub_abs_le_abs_sub x t
      linarith
    have h2 := mul_le_mul_of_nonneg_left h1 hL0.le
    linarith
  have hB' : L * |F.rnd x - x| ≤ 87 / 64 * (F.unit * K) + 17 / 16 * ω := by
    have h1 := mul_le_mul_of_nonneg_left hB hL0.le
    have h2 := mul_le_mul_of_nonneg_left hxt hu0.le
    have h3 : F.unit * ω ≤ 1 / 320 * ω := mul_le_mul_of_nonneg_right hu1 hω0
    linarith
  have htri : |F.rnd x - t| ≤ |F.rnd x - x| + |x - t| := by
    rw [show F.rnd x - t = (F.rnd x - x) + (x - t) by ring]; exact abs_add_le _ _
  rw [hrnd]
  constructor
  · have := mul_le_mul_of_nonneg_left htri hL0.le
    linarith
  · have h1 := mul_le_mul_of_nonneg_right htri hΔ0.le
    have h2 : |F.rnd x - x| * |Δ| ≤ |F.rnd x - x| * (33 / 32 * L) := mul_le_mul_of_nonneg_left hΔ1 (abs_nonneg _)
    linarith

/-- The computed point. -/
theorem plane_point_err (l d' : Vec (Fl F) 3) (n : Vec ℝ 3) (d : Vec ℝ 3) (hd : ∀ i, |(d' i).1 - d i| ≤ F.unit * |d i|) (t' : Fl F) {t L a K ω Δ : ℝ}
    (hu1 : F.unit ≤ 1 / 320) (hL : L = Spec.norm d) (hn : Spec.norm n ≤ 33 / 32) (hK0 : 0 ≤ K) (ha : a ≤ 1 / 64) (hua : F.unit ≤ 33 / 32 * a)
    (hω : F.tiny ≤ ω) (ht : L * |t| ≤ 33 / 32 * K) (ht' : L * |t'.1 - t| ≤ 87 / 4 * (a * K) + 27 / 2 * ω)
    (hΔ : Δ = ∑ i, d i * n i) (htΔ : |t'.1 - t| * |Δ| ≤ 22 * (F.unit * K) + 14 * ω) :
    (∀ i, |(vadd l (vscale d' t') i).1 - Spec.pointAt (Fl.vals l) d t i|
        ≤ F.unit * |Spec.pointAt (Fl.vals l) d t i| + 26 * (a * K) + 17 * ω) ∧
    |∑ i, ((vadd l (vscale d' t') i).1 - Spec.pointAt (Fl.vals l) d t i) * n i|
      ≤ 33 / 32 * (F.unit * ∑ i, |Spec.pointAt (Fl.vals l) d t i|) + 33 * (F.unit * K) + 19 * ω := by
  have hu0 := F.unit_pos
  have ht0 := F.tiny_nonneg
  have hω0 : 0 ≤ ω := ht0.trans hω
  have ha0 : 0 ≤ a := by linarith
  have haK : a * K ≤ 1 / 64 * K := mul_le_mul_of_nonneg_right ha hK0
  have haK0 : 0 ≤ a * K := mul_nonneg ha0 hK0
  have huK0 : 0 ≤ F.unit * K := by positivity
  have huK : F.unit * K ≤ 33 / 32 * (a * K) := by
    have := mul_le_mul_of_nonneg_right hua hK0
    linarith
  have hL0 : 0 ≤ L := by rw [hL]; exact norm_nonneg' _
  have hdi : ∀ i, |d i| ≤ L := fun i => by rw [hL]; exact coord_le_norm d i
  have ht'K : L * |t'.1| ≤ 11 / 8 * K + 27 / 2 * ω := by
    have h1 : |t'.1| ≤ |t| + |t'.1 - t| := by
      have := abs_sub_abs_le_abs_sub t'.1 t
      linarith
    have h2 := mul_le_mul_of_nonneg_left h1 hL0
    linarith
  have hdt : ∀ i, |d i * t'.1| ≤ 11 / 8 * K + 27 / 2 * ω := fun i => by
    rw [abs_mul]
    exact (mul_le_mul_of_nonneg_right (hdi i) (abs_nonneg _)).trans ht'K
  have hdd : ∀ i, |(t'.1 - t) * d i| ≤ 87 / 4 * (a * K) + 27 / 2 * ω := fun i => by
    rw [abs_mul, mul_comm]
    exact (mul_le_mul_of_nonneg_right (hdi i) (abs_nonneg _)).trans ht'
  -- near the point at the computed parameter
  have hr : ∀ i, |(vadd l (vscale d' t') i).1 - Spec.pointAt (Fl.vals l) d t'.1 i|
      ≤ F.unit * |Spec.pointAt (Fl.vals l) d t'.1 i| + 3 * (F.unit * K) + 5 / 4 * ω := by
    intro i
    set q := d' i * t' with hq
    have h1 : |(d' i).1 * t'.1 - d i * t'.1| ≤ F.unit * |d i * t'.1| := by
      rw [← sub_mul, abs_mul, abs_mul, ← mul_assoc]
      exact mul_le_mul_of_nonneg_right (hd i) (abs_nonneg _)
    have h2 : |q.1 - d i * t'.1| ≤ F.unit * |d i * t'.1| + F.unit * (|d i * t'.1| + F.unit * |d i * t'.1|) + F.tiny := by
      rw [hq, Fl.val_mul]
      exact F.err_of h1 le_rfl
    have h3 := mul_le_mul_of_nonneg_left (hdt i) hu0.le
    set y := |d i * t'.1| with hy
    have hy0 : 0 ≤ y := abs_nonneg _
    have h4 : F.unit * (F.unit * y) ≤ 1 / 320 * (F.unit * y) := mul_le_mul_of_nonneg_right hu1 (by positivity)
    have h5 : F.unit * ω ≤ 1 / 320 * ω := mul_le_mul_of_nonneg_right hu1 hω0
    have h6 : |q.1 - d i * t'.1| ≤ 14 / 5 * (F.unit * K) + 9 / 8 * ω := by linarith
    have h7 := Fl.add_rel (l i) q
    have e : Spec.pointAt (Fl.vals l) d t'.1 i = (l i).1 + t'.1 * d i := rfl
    set p := Spec.pointAt (Fl.vals l) d t'.1 i with hp
    have h8 : |(l i).1 + q.1| ≤ |p| + (14 / 5 * (F.unit * K) + 9 / 8 * ω) := by
      rw [show (l i).1 + q.1 = p + (q.1 - d i * t'.1) by rw [e]; ring]
      exact (abs_add_le _ _).trans (add_le_add le_rfl h6)
    have h9 := mul_le_mul_of_nonneg_left h8 hu0.le
    have h10 : F.unit * (F.unit * K) ≤ 1 / 320 * (F.unit * K) := mul_le_mul_of_nonneg_right hu1 huK0
    change |(l i + q).1 - p| ≤ _
    have h11 : |(l i + q).1 - p| ≤ |(l i + q).1 - ((l i).1 + q.1)| + |q.1 - d i * t'.1| := by
      rw [show (l i + q).1 - p = ((l i + q).1 - ((l i).1 + q.1)) + (q.1 - d i * t'.1) by rw [e]; ring]
      exact abs_add_le _ _
    linarith
  have hpp : ∀ i, Spec.pointAt (Fl.vals l) d t'.1 i - Spec.pointAt (Fl.vals l) d t i = (t'.1 - t) * d i := fun i => by
    unfold Spec.pointAt; ring
  have hpa : ∀ i, |Spec.pointAt (Fl.vals l) d t'.1 i| ≤ |Spec.pointAt (Fl.vals l) d t i| + (87 / 4 * (a * K) + 27 / 2 * ω) := fun i => by
    rw [show Spec.pointAt (Fl.vals l) d t'.1 i = Spec.pointAt (Fl.vals l) d t i + (t'.1 - t) * d i by rw [← hpp]; ring]
    exact (abs_add_le _ _).trans (add_le_add le_rfl (hdd i))
  have h12 : F.unit * (a * K) ≤ 1 / 64 * (F.unit * K) := by
    have := mul_le_mul_of_nonneg_left haK hu0.le
    linarith
  have h13 : F.unit * ω ≤ 1 / 320 * ω := mul_le_mul_of_nonneg_right hu1 hω0
  have hr2 : ∀ i, |(vadd l (vscale d' t') i).1 - Spec.pointAt (Fl.vals l) d t'.1 i|
      ≤ F.unit * |Spec.pointAt (Fl.vals l) d t i| + 337 / 100 * (F.unit * K) + 13 / 10 * ω := fun i => by
    have h1 := hr i
    have h2 := mul_le_mul_of_nonneg_left (hpa i) hu0.le
    linarith
  constructor
  · intro i
    have h1 := hr2 i
    have h2 : |(vadd l (vscale d' t') i).1 - Spec.pointAt (Fl.vals l) d t i|
        ≤ |(vadd l (vscale d' t') i).1 - Spec.pointAt (Fl.vals l) d t'.1 i| + |(t'.1 - t) * d i| := by
      rw [← hpp]
      exact abs_sub_le _ _ _
    have h3 := hdd i
    linarith
  · have hni : ∀ i, |n i| ≤ 33 / 32 := fun i => (coord_le_norm n i).trans hn
    have e : ∑ i, ((vadd l (vscale d' t') i).1 - Spec.pointAt (Fl.vals l) d t i) * n i
        = ∑ i, ((vadd l (vscale d' t') i).1 - Spec.pointAt (Fl.vals l) d t'.1 i) * n i + (t'.1 - t) * Δ := by
      rw [hΔ, Finset.mul_sum, ← Finset.sum_add_distrib]
      refine Finset.sum_congr rfl fun i _ => ?_
      have := hpp i
      rw [show (vadd l (vscale d' t') i).1 - Spec.pointAt (Fl.vals l) d t i
        = ((vadd l (vscale d' t') i).1 - Spec.pointAt (Fl.vals l) d t'.1 i) + (t'.1 - t) * d i by rw [← this]; ring]
      ring
    rw [e]
    refine (abs_add_le _ _).trans ?_
    rw [abs_mul (t'.1 - t)]
    have h1 : |∑ i, ((vadd l (vscale d' t') i).1 - Spec.pointAt (Fl.vals l) d t'.1 i) * n i|
        ≤ ∑ i, (F.unit * |Spec.pointAt (Fl.vals l) d t i| + 337 / 100 * (F.unit * K) + 13 / 10 * ω) * (33 / 32) := by
      refine (Finset.abs_sum_le_sum_abs _ _).trans (Finset.sum_le_sum fun i _ => ?_)
      rw [abs_mul]
      exact mul_le_mul (hr2 i) (hni i) (abs_nonneg _) (by positivity)
    rw [← Finset.sum_mul, Finset.sum_add_distrib, Finset.sum_add_distrib, ← Finset.mul_sum] at h1
    simp only [Finset.sum_const, Finset.card_univ, Fintype.card_fin, nsmul_eq_mul] at h1
    push_cast at h1
    linarith

/-- Plane and line have one point in common. -/
theorem plane_line_inter (o n l d : Vec ℝ 3) (hΔ : ∑ i, d i * n i ≠ 0) :
    Spec.plane o n ∩ Spec.line l d = {Spec.pointAt l d ((∑ i, (o i - l i) * n i) / ∑ i, d i * n i)} := by
  have key : ∀ t, ∑ i, (Spec.pointAt l d t i - o i) * n i = t * (∑ i, d i * n i) - ∑ i, (o i - l i) * n i := fun t => by
    rw [Finset.mul_sum, ← Finset.sum_sub_distrib]
    refine Finset.sum_congr rfl fun i _ => ?_
    unfold Spec.pointAt
    ring
  ext q
  constructor
  · rintro ⟨h1, t, rfl⟩
    have h1 : ∑ i, (Spec.pointAt l d t i - o i) * n i = 0 := h1
    rw [key] at h1
    have : t = (∑ i, (o i - l i) * n i) / ∑ i, d i * n i := by rw [eq_div_iff hΔ]; linarith
    rw [this]; rfl
  · rintro rfl
    refine ⟨?_, _, rfl⟩
    show ∑ i, (Spec.pointAt l d _ i - o i) * n i = 0
    rw [key, div_mul_cancel₀ _ hΔ, sub_self]

/-- The distance to a plane with normal of length about one. -/
theorem plane_distance (o n v : Vec ℝ 3) (hn : 0 < Spec.norm n) :
    Spec.IsDistance {v} (Spec.plane o n) (|∑ i, (v i - o i) * n i| / Spec.norm n) := by
  have h := C22_point_plane o n v (vals_ne_zero hn)
  have e : distPlaneVec (Plane.make o n) v = |∑ i, (v i - o i) * n i| / Spec.norm n := by
    unfold distPlaneVec Plane.make
    rw [stdAbs_eq, dot_eq, normalize_eq, dotProduct_smul, smul_eq_mul, abs_mul, abs_of_pos (inv_pos.2 (length_pos (vals_ne_zero hn))),
      ← spec_norm_eq, ← div_eq_inv_mul]
    congr 1
    rw [← abs_neg]
    congr 1
    simp only [dotProduct]
    rw [← Finset.sum_neg_distrib]
    exact Finset.sum_congr rfl fun i _ => by rw [vsub]; ring
  rwa [e] at h

/-- Everything about parameter and point. -/
theorem plane_hit (o n l d' : Vec (Fl F) 3) (d : Vec ℝ 3) (hd : ∀ i, |(d' i).1 - d i| ≤ F.unit * |d i|) (hp : 9 ≤ F.prec)
    (hmin : ∀ k, F.emin = some k → k ≤ -2 * (F.prec : ℤ)) {L s K ω : ℝ} (hL : L = Spec.norm d) (hL0 : 0 < L) (htL : F.tiny ≤ F.unit * F.unit * L)
    (hn1 : 31 / 32 ≤ Spec.norm (fun i => (n i).1)) (hn : Spec.norm (fun i => (n i).1) ≤ 33 / 32) (hs0 : 0 < s)
    (hs : s * L ≤ |∑ i, d i * (n i).1|) (hu : 64 * F.unit ≤ s)
    (hK : K = Spec.dist (fun i => (o i).1) (fun i => (l i).1) / s) (hω0 : 0 ≤ ω)
    (hω : ∀ k, F.emin = some k → (2 : ℝ) ^ k * (1 / s + L + 1) ≤ ω) :
    3 / 4 * (s * L) ≤ |(dot d' n).1| ∧
    ∃ t, Spec.plane (fun i => (o i).1) (fun i => (n i).1) ∩ Spec.line (fun i => (l i).1) d = {Spec.pointAt (fun i => (l i).1) d t} ∧
      L * |(dot (vsub o l) n / dot d' n).1 - t| ≤ 87 / 4 * (F.unit / s * K) + 27 / 2 * ω ∧
      (∀ i, |(vadd l (vscale d' (dot (vsub o l) n / dot d' n)) i).1 - Spec.pointAt (fun i => (l i).1) d t i|
        ≤ F.unit * |Spec.pointAt (fun i => (l i).1) d t i| + 26 * (F.unit / s * K) + 17 * ω) ∧
      ∃ δ, Spec.IsDistance {fun i => (vadd l (vscale d' (dot (vsub o l) n / dot d' n)) i).1} (Spec.plane (fun i => (o i).1) (fun i => (n i).1)) δ ∧
        δ ≤ F.unit * (2 * ∑ i, |Spec.pointAt (fun i => (l i).1) d t i| + 36 * K) + 20 * ω := by
  have ht := tiny_of_emin hmin
  have hu0 := F.unit_pos
  have ht0 := F.tiny_nonneg
  have hD : 64 * (3 + 2) ≤ 2 ^ F.prec := le_trans (by norm_num) (Nat.pow_le_pow_right (by norm_num) hp)
  obtain ⟨f1, f2, f3, f4⟩ := dim_facts (D := 3) hD ht
  push_cast at f2
  have hu1 : F.unit ≤ 1 / 320 := by linarith
  have hω' : F.tiny * (1 / s + L + 1) ≤ ω := by
    unfold FloatFormat.tiny
    split
    · rw [zero_mul]; exact hω0
    · next k hk => exact hω k hk
  have hω1 : F.tiny ≤ ω := by
    have h1 : 0 ≤ F.tiny * (1 / s + L) := by positivity
    linarith
  obtain ⟨hA, hB⟩ := plane_param_err o n l d' d hd hp ht hL hL0 htL hn hs0 hs hu rfl hK hω'
  refine ⟨hA, ?_⟩
  have hΔ0 : ∑ i, d i * (n i).1 ≠ 0 := abs_pos.1 (lt_of_lt_of_le (mul_pos hs0 hL0) hs)
  obtain ⟨h1, h2, h3⟩ := hB _ rfl
  set t := (∑ i, ((o i).1 - (l i).1) * (n i).1) / (∑ i, d i * (n i).1) with ht
  set t' := dot (vsub o l) n / dot d' n with ht'
  have hs1 : s ≤ 33 / 32 := by
    have h4 := abs_dp_le d (fun i => (n i).1)
    rw [← hL] at h4
    have h5 := mul_le_mul_of_nonneg_left hn hL0.le
    have : s * L ≤ 33 / 32 * L := by linarith
    exact le_of_mul_le_mul_right this hL0
  have hK0 : 0 ≤ K := by rw [hK]; exact div_nonneg (dist_nonneg' _ _) hs0.le
  have ha1 : F.unit / s ≤ 1 / 64 := by rw [div_le_iff₀ hs0]; linarith
  have ha2 : F.unit ≤ 33 / 32 * (F.unit / s) := by
    rw [mul_div_assoc', le_div_iff₀ hs0]
    have := mul_le_mul_of_nonneg_left hs1 hu0.le
    linarith
  obtain ⟨h4, h5⟩ := plane_point_err l d' (fun i => (n i).1) d hd t' hu1 hL hn hK0 ha1 ha2 hω1 h1 h2 rfl h3
  have hin := plane_line_inter (fun i => (o i).1) (fun i => (n i).1) (fun i => (l i).1) d hΔ0
  refine ⟨t, hin, h2, h4, _, plane_distance _ _ _ (by linarith), ?_⟩
  have hx : Spec.pointAt (fun i => (l i).1) d t ∈ Spec.plane (fun i => (o i).1) (fun i => (n i).1) :=
    (hin.symm.subset (Set.mem_singleton _)).1
  have hx : ∑ i, (Spec.pointAt (fun i => (l i).1) d t i - (o i).1) * (n i).1 = 0 := hx
  have e : ∑ i, ((vadd l (vscale d' t') i).1 - (o i).1) * (n i).1
      = ∑ i, ((vadd l (vscale d' t') i).1 - Spec.pointAt (Fl.vals l) d t i) * (n i).1 := by
    rw [← sub_zero (∑ i, ((vadd l (vscale d' t') i).1 - (o i).1) * (n i).1), ← hx, ← Finset.sum_sub_distrib]
    refine Finset.sum_congr rfl fun i _ => ?_
    rw [← sub_mul]
    congr 1
    show _ = _ - Spec.pointAt (fun i => (l i).1) d t i
    ring
  rw [e, div_le_iff₀ (by linarith)]
  refine h5.trans ?_
  have h6 : 0 ≤ F.unit * ∑ i, |Spec.pointAt (Fl.vals l) d t i| := mul_nonneg hu0.le (Finset.sum_nonneg fun i _ => abs_nonneg _)
  change _ ≤ (F.unit * (2 * ∑ i, |Spec.pointAt (Fl.vals l) d t i| + 36 * K) + 20 * ω) * _
  have h7 : 0 ≤ F.unit * K := by positivity
  have h8 : (F.unit * (2 * ∑ i, |Spec.pointAt (Fl.vals l) d t i| + 36 * K) + 20 * ω) * (31 / 32)
      ≤ (F.unit * (2 * ∑ i, |Spec.pointAt (Fl.vals l) d t i| + 36 * K) + 20 * ω) * Spec.norm (fun i => (n i).1) :=
    mul_le_mul_of_nonneg_left hn1 (by linarith)
  linarith

theorem tiny_le_norm (hmin : ∀ k, F.emin = some k → k < -2 * (F.prec : ℤ)) {L : ℝ} (hL : 1 / 2 ≤ L) : F.tiny ≤ F.unit * F.unit * L := by
  have hu0 := F.unit_pos
  have h2 : 0 < F.unit * F.unit := by positivity
  have h1 : 2 * F.tiny ≤ F.unit * F.unit := by
    unfold FloatFormat.tiny
    split
    · rw [mul_zero]; exact h2.le
    · next k hk =>
      have h2 := hmin k hk
      have h3 : (2 : ℝ) ^ (k + 1) ≤ F.unit * F.unit := by
        unfold FloatFormat.unit
        rw [inv_pow, ← zpow_natCast, ← zpow_neg, ← zpow_add₀ (by norm_num)]
        exact zpow_le_zpow_right₀ (by norm_num) (by omega)
      rw [zpow_add₀ (by norm_num), zpow_one] at h3
      linarith
  have := mul_le_mul_of_nonneg_left hL h2.le
  linarith

variable [Tol (Fl F)]

/-- **C105** Plane and line. `s` is a lower bound for the sine of their angle (times the length of the normal), `W` the distance of the two
stored origins. The point computed exists, is within `2^-prec (|x i| + 26 W / s²)` of the only common point `x` in each coordinate, and within
`2^-prec (2 Σ|x i| + 36 W / s)` of the plane: a flat angle moves the point along the line more than across the plane. -/
theorem C105_plane_line (p : Plane (Fl F)) (l : Line (Fl F) 3) (e : Fl F) (hp : 9 ≤ F.prec)
    (hmin : ∀ k, F.emin = some k → k < -2 * (F.prec : ℤ))
    (hn : |Spec.norm (fun i => (p.normal i).1) - 1| ≤ 1 / 32) (hd : |Spec.norm (fun i => (l.direction i).1) - 1| ≤ 1 / 32)
    {s ω : ℝ} (hs0 : 0 < s) (hs : s * Spec.norm (fun i => (l.direction i).1) ≤ |∑ i, (l.direction i).1 * (p.normal i).1|)
    (hu : 64 * (2 : ℝ)⁻¹ ^ F.prec ≤ s) (hω0 : 0 ≤ ω) (hω : ∀ k, F.emin = some k → (2 : ℝ) ^ k * (1 / s + 3) ≤ ω)
    (hz : ∀ x : Fl F, 1 / 2 * s ≤ |x.1| → Tol.isZero x e = false) :
    ∃ q x, intersectPlaneLine p l e = some q ∧
      Spec.plane (fun i => (p.origin i).1) (fun i => (p.normal i).1) ∩ Spec.line (fun i => (l.origin i).1) (fun i => (l.direction i).1) = {x} ∧
      (∀ i, |(q i).1 - x i| ≤ (2 : ℝ)⁻¹ ^ F.prec * |x i|
        + 26 * ((2 : ℝ)⁻¹ ^ F.prec / s * (Spec.dist (fun i => (p.origin i).1) (fun i => (l.origin i).1) / s)) + 17 * ω) ∧
      ∃ δ, Spec.IsDistance {fun i => (q i).1} (Spec.plane (fun i => (p.origin i).1) (fun i => (p.normal i).1)) δ ∧
        δ ≤ (2 : ℝ)⁻¹ ^ F.prec * (2 * ∑ i, |x i| + 36 * (Spec.dist (fun i => (p.origin i).1) (fun i => (l.origin i).1) / s)) + 20 * ω := by
  have hu0 := F.unit_pos
  obtain ⟨n1, n2⟩ := abs_le.1 hn
  obtain ⟨d1, d2⟩ := abs_le.1 hd
  obtain ⟨h1, t, h2, h3, h4, h5⟩ := plane_hit p.origin p.normal l.origin l.direction (fun i => (l.direction i).1)
    (fun i => by rw [sub_self, abs_zero]; positivity) hp (fun k hk => (hmin k hk).le) rfl (by linarith) (tiny_le_norm hmin (by linarith))
    (by linarith) (by linarith) hs0 hs hu rfl hω0
    (fun k hk => le_trans (mul_le_mul_of_nonneg_left (by linarith) (zpow_pos two_pos k).le) (hω k hk))
  have hzz : Tol.isZero (dot l.direction p.normal) e = false := by
    refine hz _ (le_trans ?_ h1)
    have := mul_le_mul_of_nonneg_left (show 31 / 32 ≤ Spec.norm (fun i => (l.direction i).1) by linarith) hs0.le
    linarith
  refine ⟨vadd l.origin (vscale l.direction (dot (vsub p.origin l.origin) p.normal / dot l.direction p.normal)), _, ?_, h2, h4, h5⟩
  unfold intersectPlaneLine
  simp only [hzz]
  rfl

/-- **C105** Plane and ray. The common point `x` of the plane and the line carrying the ray lies at parameter `t`. Every point reported is
accurate; a point is reported whenever `t` is positive by a margin, and none when it is negative by the error of the parameter. -/
theorem C105_plane_ray (p : Plane (Fl F)) (r : Ray (Fl F) 3) (e : Fl F) (hp : 9 ≤ F.prec)
    (hmin : ∀ k, F.emin = some k → k < -2 * (F.prec : ℤ))
    (hn : |Spec.norm (fun i => (p.normal i).1) - 1| ≤ 1 / 32) (hd : |Spec.norm (fun i => (r.direction i).1) - 1| ≤ 1 / 32)
    {s ω τ : ℝ} (hs0 : 0 < s) (hs : s * Spec.norm (fun i => (r.direction i).1) ≤ |∑ i, (r.direction i).1 * (p.normal i).1|)
    (hu : 64 * (2 : ℝ)⁻¹ ^ F.prec ≤ s) (hω0 : 0 ≤ ω) (hω : ∀ k, F.emin = some k → (2 : ℝ) ^ k * (1 / s + 3) ≤ ω)
    (hz : ∀ x : Fl F, 1 / 2 * s ≤ |x.1| → Tol.isZero x e = false)
    (hg : ∀ x : Fl F, τ < x.1 → Tol.isGreater x 0 e = true) (hng : ∀ x : Fl F, x.1 ≤ 0 → Tol.isGreater x 0 e = false) :
    ∃ t x, Spec.plane (fun i => (p.origin i).1) (fun i => (p.normal i).1) ∩ Spec.line (fun i => (r.origin i).1) (fun i => (r.direction i).1) = {x} ∧
      x = Spec.pointAt (fun i => (r.origin i).1) (fun i => (r.direction i).1) t ∧
      (∀ q, intersectPlaneRay p r e = some q →
        (∀ i, |(q i).1 - x i| ≤ (2 : ℝ)⁻¹ ^ F.prec * |x i|
          + 26 * ((2 : ℝ)⁻¹ ^ F.prec / s * (Spec.dist (fun i => (p.origin i).1) (fun i => (r.origin i).1) / s)) + 17 * ω) ∧
        ∃ δ, Spec.IsDistance {fun i => (q i).1} (Spec.plane (fun i => (p.origin i).1) (fun i => (p.normal i).1)) δ ∧
          δ ≤ (2 : ℝ)⁻¹ ^ F.prec * (2 * ∑ i, |x i| + 36 * (Spec.dist (fun i => (p.origin i).1) (fun i => (r.origin i).1) / s)) + 20 * ω) ∧
      (τ + 23 * ((2 : ℝ)⁻¹ ^ F.prec / s * (Spec.dist (fun i => (p.origin i).1) (fun i => (r.origin i).1) / s)) + 14 * ω < t →
        (intersectPlaneRay p r e).isSome) ∧
      (t ≤ -(23 * ((2 : ℝ)⁻¹ ^ F.prec / s * (Spec.dist (fun i => (p.origin i).1) (fun i => (r.origin i).1) / s)) + 14 * ω) →
        intersectPlaneRay p r e = none) := by
  have hu0 := F.unit_pos
  obtain ⟨n1, n2⟩ := abs_le.1 hn
  obtain ⟨d1, d2⟩ := abs_le.1 hd
  obtain ⟨h1, t, h2, h3, h4, h5⟩ := plane_hit p.origin p.normal r.origin r.direction (fun i => (r.direction i).1)
    (fun i => by rw [sub_self, abs_zero]; positivity) hp (fun k hk => (hmin k hk).le) rfl (by linarith) (tiny_le_norm hmin (by linarith))
    (by linarith) (by linarith) hs0 hs hu rfl hω0
    (fun k hk => le_trans (mul_le_mul_of_nonneg_left (by linarith) (zpow_pos two_pos k).le) (hω k hk))
  have hzz : Tol.isZero (dot r.direction p.normal) e = false := by
    refine hz _ (le_trans ?_ h1)
    have := mul_le_mul_of_nonneg_left (show 31 / 32 ≤ Spec.norm (fun i => (r.direction i).1) by linarith) hs0.le
    linarith
  have hr : intersectPlaneRay p r e = if Tol.isGreater (dot (vsub p.origin r.origin) p.normal / dot r.direction p.normal) 0 e then
      some (vadd r.origin (vscale r.direction (dot (vsub p.origin r.origin) p.normal / dot r.direction p.normal))) else none := by
    unfold intersectPlaneRay calcIntersectionParameter
    simp only [hzz]
    rfl
  set t' := dot (vsub p.origin r.origin) p.normal / dot r.direction p.normal with ht'
  have hE : |t'.1 - t| ≤ 23 * (F.unit / s * (Spec.dist (fun i => (p.origin i).1) (fun i => (r.origin i).1) / s)) + 14 * ω := by
    have h6 := mul_le_mul_of_nonneg_right (show 31 / 32 ≤ Spec.norm (fun i => (r.direction i).1) by linarith) (abs_nonneg (t'.1 - t))
    have h7 : 0 ≤ F.unit / s * (Spec.dist (fun i => (p.origin i).1) (fun i => (r.origin i).1) / s) :=
      mul_nonneg (by positivity) (div_nonneg (dist_nonneg' _ _) hs0.le)
    linarith
  obtain ⟨e1, e2⟩ := abs_le.1 hE
  refine ⟨t, _, h2, rfl, ?_, ?_, ?_⟩
  · intro q hq
    rw [hr] at hq
    split at hq
    · cases hq; exact ⟨h4, h5⟩
    · cases hq
  · intro h
    change τ + 23 * (F.unit / s * _) + _ < t at h
    rw [hr, if_pos (hg _ (by linarith))]; rfl
  · intro h
    change t ≤ -(23 * (F.unit / s * _) + _) at h
    rw [hr, hng _ (by linarith)]; rfl

/-- **C105** Plane and segment, with parameters from 0 at the source to 1 at the target. `M` is the length of the segment. -/
theorem C105_plane_segment (p : Plane (Fl F)) (g : Segment (Fl F) 3) (e : Fl F) (hp : 9 ≤ F.prec)
    (hmin : ∀ k, F.emin = some k → k ≤ -2 * (F.prec : ℤ)) (hn : |Spec.norm (fun i => (p.normal i).1) - 1| ≤ 1 / 32)
    {s ω τ M W : ℝ} (hM : M = Spec.dist (fun i => (g.target i).1) (fun i => (g.source i).1)) (hM0 : 0 < M)
    (hW : W = Spec.dist (fun i => (p.origin i).1) (fun i => (g.source i).1))
    (hMt : ∀ k, F.emin = some k → (2 : ℝ) ^ k ≤ (2 : ℝ)⁻¹ ^ F.prec * (2 : ℝ)⁻¹ ^ F.prec * M)
    (hs0 : 0 < s) (hs : s * M ≤ |∑ i, ((g.target i).1 - (g.source i).1) * (p.normal i).1|)
    (hu : 64 * (2 : ℝ)⁻¹ ^ F.prec ≤ s) (hω0 : 0 ≤ ω) (hω : ∀ k, F.emin = some k → (2 : ℝ) ^ k * (1 / s + M + 1) ≤ ω)
    (hz : ∀ x : Fl F, 1 / 2 * (s * M) ≤ |x.1| → Tol.isZero x e = false)
    (hg : ∀ x : Fl F, τ < x.1 → Tol.isGreater x 0 e = true) (hng : ∀ x : Fl F, x.1 ≤ 0 → Tol.isGreater x 0 e = false)
    (hl : ∀ x : Fl F, x.1 ≤ 1 → Tol.isLessEq x 1 e = true) (hnl : ∀ x : Fl F, 1 + τ < x.1 → Tol.isLessEq x 1 e = false) :
    ∃ t x, Spec.plane (fun i => (p.origin i).1) (fun i => (p.normal i).1)
        ∩ Spec.line (fun i => (g.source i).1) (fun i => (g.target i).1 - (g.source i).1) = {x} ∧
      x = Spec.pointAt (fun i => (g.source i).1) (fun i => (g.target i).1 - (g.source i).1) t ∧
      (∀ q, intersectPlaneSegment p g e = some q →
        (∀ i, |(q i).1 - x i| ≤ (2 : ℝ)⁻¹ ^ F.prec * |x i| + 26 * ((2 : ℝ)⁻¹ ^ F.prec / s * (W / s)) + 17 * ω) ∧
        ∃ δ, Spec.IsDistance {fun i => (q i).1} (Spec.plane (fun i => (p.origin i).1) (fun i => (p.normal i).1)) δ ∧
          δ ≤ (2 : ℝ)⁻¹ ^ F.prec * (2 * ∑ i, |x i| + 36 * (W / s)) + 20 * ω) ∧
      (τ + (22 * ((2 : ℝ)⁻¹ ^ F.prec / s * (W / s)) + 14 * ω) / M < t → t ≤ 1 - (22 * ((2 : ℝ)⁻¹ ^ F.prec / s * (W / s)) + 14 * ω) / M →
        (intersectPlaneSegment p g e).isSome) ∧
      (t ≤ -((22 * ((2 : ℝ)⁻¹ ^ F.prec / s * (W / s)) + 14 * ω) / M) → intersectPlaneSegment p g e = none) ∧
      (1 + τ + (22 * ((2 : ℝ)⁻¹ ^ F.prec / s * (W / s)) + 14 * ω) / M < t → intersectPlaneSegment p g e = none) := by
  have hu0 := F.unit_pos
  obtain ⟨n1, n2⟩ := abs_le.1 hn
  have hMt' : F.tiny ≤ F.unit * F.unit * M := by
    unfold FloatFormat.tiny
    split
    · positivity
    · next k hk => exact hMt k hk
  obtain ⟨h1, t, h2, h3, h4, h5⟩ := plane_hit p.origin p.normal g.source (vsub g.target g.source) (fun i => (g.target i).1 - (g.source i).1)
    (fun i => Fl.sub_rel _ _) hp hmin hM hM0 hMt' (by linarith) (by linarith) hs0 hs hu rfl hω0 hω
  have hzz : Tol.isZero (dot (vsub g.target g.source) p.normal) e = false := by
    refine hz _ (le_trans ?_ h1)
    have : 0 ≤ s * M := by positivity
    linarith
  have hr : intersectPlaneSegment p g e = if Tol.isGreater (dot (vsub p.origin g.source) p.normal / dot (vsub g.target g.source) p.normal) 0 e
        && Tol.isLessEq (dot (vsub p.origin g.source) p.normal / dot (vsub g.target g.source) p.normal) 1 e then
      some (vadd g.source (vscale (vsub g.target g.source) (dot (vsub p.origin g.source) p.normal / dot (vsub g.target g.source) p.normal)))
      else none := by
    unfold intersectPlaneSegment calcIntersectionParameter
    simp only [hzz]
    rfl
  set t' := dot (vsub p.origin g.source) p.normal / dot (vsub g.target g.source) p.normal with ht'
  rw [← hW] at h3 h4 h5
  have hE : |t'.1 - t| ≤ (22 * (F.unit / s * (W / s)) + 14 * ω) / M := by
    rw [le_div_iff₀ hM0, mul_comm]
    have h7 : 0 ≤ F.unit / s * (W / s) :=
      mul_nonneg (by positivity) (div_nonneg (by rw [hW]; exact dist_nonneg' _ _) hs0.le)
    linarith
  obtain ⟨e1, e2⟩ := abs_le.1 hE
  change ∃ t x, _ ∧ _ ∧ _ ∧ (τ + (22 * (F.unit / s * (W / s)) + 14 * ω) / M < t → t ≤ 1 - (22 * (F.unit / s * (W / s)) + 14 * ω) / M → _) ∧
    (t ≤ -((22 * (F.unit / s * (W / s)) + 14 * ω) / M) → _) ∧ (1 + τ + (22 * (F.unit / s * (W / s)) + 14 * ω) / M < t → _)
  refine ⟨t, _, h2, rfl, ?_, ?_, ?_, ?_⟩
  · intro q hq
    rw [hr] at hq
    split at hq
    · cases hq; exact ⟨h4, h5⟩
    · cases hq
  · intro h h'
    rw [hr, hg _ (by linarith), hl _ (by linarith)]; rfl
  · intro h
    rw [hr, hng _ (by linarith)]; rfl
  · intro h
    rw [hr, hnl _ (by linarith), Bool.and_false]; rfl
end

/-! ### Concrete cases -/
section Examples
attribute [local instance] tol64

theorem emin64_lt : ∀ k, binary64.emin = some k → k < -2 * (binary64.prec : ℤ) := by
  intro k hk
  cases hk
  show (-1074 : ℤ) < -2 * 53
  norm_num

/-- Eighths. -/
noncomputable def eighth64 (n : ℤ) (h : |n| < 2 ^ 53 := by norm_num) : Fl binary64 :=
  ⟨n / 8, n, -3, h, by intro k hk; cases hk; norm_num, by norm_num; ring⟩

/-- (5, 6, 2) / 8, of length about 1.008. -/
noncomputable def dir64 : Vec (Fl binary64) 3 := ![eighth64 5, eighth64 6, eighth64 2]

theorem dir64_vals : (fun i => (dir64 i).1) = ![5 / 8, 6 / 8, 2 / 8] := by
  funext i
  fin_cases i
  · show ((5 : ℤ) : ℝ) / 8 = _; norm_num
  · show ((6 : ℤ) : ℝ) / 8 = _; norm_num
  · show ((2 : ℤ) : ℝ) / 8 = _; norm_num

theorem dir64_norm : 1 ≤ Spec.norm (fun i => (dir64 i).1) ∧ Spec.norm (fun i => (dir64 i).1) ≤ 33 / 32 := by
  rw [dir64_vals]
  unfold Spec.norm
  rw [Fin.sum_univ_three]
  simp only [Matrix.cons_val_zero, Matrix.cons_val_one, Matrix.cons_val]
  constructor
  · rw [Real.one_le_sqrt]; norm_num
  · rw [Real.sqrt_le_iff]; norm_num

theorem unitZ64 : Spec.norm (fun i => ((p64 0 0 1) i).1) = 1 := by
  rw [p64_vals]; exact norm3 _ _ _ 1 (by norm_num) (by norm_num)

theorem emin64_mul {c : ℝ} (hc : c ≤ 100) : ∀ k, binary64.emin = some k → (2 : ℝ) ^ k * c ≤ 1 / 10 ^ 18 := by
  intro k hk
  have h := emin64' k hk
  have h0 : (0 : ℝ) < 2 ^ k := zpow_pos two_pos k
  have := mul_le_mul_of_nonneg_left hc h0.le
  norm_num at h ⊢
  linarith

theorem isZero64 (e : Fl binary64) (x : Fl binary64) (h : 1 / 10 ≤ |x.1|) : Tol.isZero x e = false :=
  decide_eq_false (by rw [not_lt]; norm_num at h ⊢; linarith)

/-- The line through (1, 1, 0) along (5, 6, 2) meets the plane z = 1 in (7/2, 4, 1). -/
example : ∃ q, intersectPlaneLine ⟨p64 3 3 1, p64 0 0 1⟩ ⟨p64 1 1 0, dir64⟩ = some q ∧ |(q 0).1 - 7 / 2| ≤ 1 / 10 ^ 11 := by
  obtain ⟨d1, d2⟩ := dir64_norm
  obtain ⟨q, x, h1, h2, h3, -⟩ := C105_plane_line ⟨p64 3 3 1, p64 0 0 1⟩ ⟨p64 1 1 0, dir64⟩ Tol.eps (by show 9 ≤ 53; norm_num) emin64_lt
    (by show |Spec.norm (fun i => ((p64 0 0 1) i).1) - 1| ≤ _; rw [unitZ64]; norm_num)
    (abs_le.2 ⟨by linarith, by linarith⟩) (s := 1 / 5) (ω := 1 / 10 ^ 18) (by norm_num)
    (by
      show _ * Spec.norm (fun i => (dir64 i).1) ≤ |∑ i, (fun i => (dir64 i).1) i * (fun i => ((p64 0 0 1) i).1) i|
      rw [p64_vals, dir64_vals, Fin.sum_univ_three, ← dir64_vals]
      simp only [Matrix.cons_val_zero, Matrix.cons_val_one, Matrix.cons_val]
      show 1 / 5 * Spec.norm (fun i => (dir64 i).1) ≤ |((5 : ℤ) : ℝ) / 8 * _ + ((6 : ℤ) : ℝ) / 8 * _ + ((2 : ℤ) : ℝ) / 8 * _|
      norm_num
      linarith)
    (by show 64 * (2 : ℝ)⁻¹ ^ 53 ≤ _; norm_num) (by norm_num) (emin64_mul (by norm_num)) (fun x h => isZero64 _ x (by linarith))
  refine ⟨q, h1, ?_⟩
  have hx : ![7 / 2, 4, 1] ∈ ({x} : Set (Vec ℝ 3)) := by
    rw [← h2]
    show _ ∈ Spec.plane (fun i => ((p64 3 3 1) i).1) (fun i => ((p64 0 0 1) i).1) ∩ Spec.line (fun i => ((p64 1 1 0) i).1) (fun i => (dir64 i).1)
    rw [p64_vals, p64_vals, p64_vals, dir64_vals]
    refine ⟨?_, 4, ?_⟩
    · simp [Spec.plane, Fin.sum_univ_three]
    · funext i; fin_cases i <;> (simp [Spec.pointAt]; try norm_num)
  obtain rfl : ![7 / 2, 4, 1] = x := hx
  have hW : Spec.dist (fun i => ((p64 3 3 1) i).1) (fun i => ((p64 1 1 0) i).1) = 3 := by
    rw [p64_vals, p64_vals]; exact dist3 _ _ _ _ _ _ 3 (by norm_num) (by norm_num)
  have h := h3 0
  simp only [hW, Matrix.cons_val_zero] at h
  refine h.trans ?_
  have h4 := unit64'
  generalize (2 : ℝ)⁻¹ ^ binary64.prec = μ at h4 ⊢
  norm_num at h4 ⊢
  linarith

/-- The ray from the same point meets the plane, and the opposite plane z = -1 is behind it. -/
example : (intersectPlaneRay ⟨p64 3 3 1, p64 0 0 1⟩ ⟨p64 1 1 0, dir64⟩).isSome ∧
    intersectPlaneRay ⟨p64 3 3 (-1), p64 0 0 1⟩ ⟨p64 1 1 0, dir64⟩ = none := by
  obtain ⟨d1, d2⟩ := dir64_norm
  have key := fun c hc => C105_plane_ray ⟨p64 3 3 c (by norm_num) (by norm_num) hc, p64 0 0 1⟩ ⟨p64 1 1 0, dir64⟩ Tol.eps (by show 9 ≤ 53; norm_num) emin64_lt
    (by show |Spec.norm (fun i => ((p64 0 0 1) i).1) - 1| ≤ _; rw [unitZ64]; norm_num)
    (abs_le.2 ⟨by linarith, by linarith⟩) (s := 1 / 5) (ω := 1 / 10 ^ 18) (τ := 2 / 10 ^ 6) (by norm_num)
    (by
      show _ * Spec.norm (fun i => (dir64 i).1) ≤ |∑ i, (fun i => (dir64 i).1) i * (fun i => ((p64 0 0 1) i).1) i|
      rw [p64_vals, dir64_vals, Fin.sum_univ_three, ← dir64_vals]
      simp only [Matrix.cons_val_zero, Matrix.cons_val_one, Matrix.cons_val]
      show 1 / 5 * Spec.norm (fun i => (dir64 i).1) ≤ |((5 : ℤ) : ℝ) / 8 * _ + ((6 : ℤ) : ℝ) / 8 * _ + ((2 : ℤ) : ℝ) / 8 * _|
      norm_num
      linarith)
    (by show 64 * (2 : ℝ)⁻¹ ^ 53 ≤ _; norm_num) (by norm_num) (emin64_mul (by norm_num)) (fun x h => isZero64 _ x (by linarith))
    (fun x h => decide_eq_true (by rw [Fl.val_zero]; norm_num at h ⊢; linarith))
    (fun x h => decide_eq_false (by rw [Fl.val_zero]; norm_num at h ⊢; linarith))
  have ht : ∀ (c : ℤ) (hc : |c| < 2 ^ 53) (t : ℝ) (x : Vec ℝ 3), Spec.plane (fun i => ((p64 3 3 c (by norm_num) (by norm_num) hc) i).1) (fun i => ((p64 0 0 1) i).1)
      ∩ Spec.line (fun i => ((p64 1 1 0) i).1) (fun i => (dir64 i).1) = {x} →
      x = Spec.pointAt (fun i => ((p64 1 1 0) i).1) (fun i => (dir64 i).1) t → t = 4 * c := by
    intro c hc t x h1 h2
    have h3 : x ∈ Spec.plane (fun i => ((p64 3 3 c (by norm_num) (by norm_num) hc) i).1) (fun i => ((p64 0 0 1) i).1) :=
      (h1.symm.subset (Set.mem_singleton _)).1
    rw [h2, p64_vals, p64_vals, p64_vals, dir64_vals] at h3
    simp [Spec.plane, Fin.sum_univ_three, Spec.pointAt] at h3
    linarith
  have hW : ∀ c hc, c ^ 2 = 1 → Spec.dist (fun i => ((p64 3 3 c (by norm_num) (by norm_num) hc) i).1) (fun i => ((p64 1 1 0) i).1) = 3 := by
    intro c hc h
    rw [p64_vals, p64_vals]
    refine dist3 _ _ _ _ _ _ 3 (by norm_num) ?_
    have : (c : ℝ) ^ 2 = 1 := by exact_mod_cast h
    push_cast
    linarith
  have h4 := unit64'
  constructor
  · obtain ⟨t, x, h1, h2, -, h3, -⟩ := key 1 (by norm_num)
    have e := ht 1 (by norm_num) t x h1 h2
    refine h3 ?_
    simp only [hW 1 (by norm_num) (by norm_num)]
    rw [e]
    generalize (2 : ℝ)⁻¹ ^ binary64.prec = μ at h4 ⊢
    norm_num at h4 ⊢
    linarith
  · obtain ⟨t, x, h1, h2, -, -, h3⟩ := key (-1) (by norm_num)
    have e := ht (-1) (by norm_num) t x h1 h2
    refine h3 ?_
    simp only [hW (-1) (by norm_num) (by norm_num)]
    rw [e]
    generalize (2 : ℝ)⁻¹ ^ binary64.prec = μ at h4 ⊢
    norm_num at h4 ⊢
    linarith

/-- The segment from (1, 1, 0) to (4, 7, 2) meets the plane z = 1 half way. -/
example : (intersectPlaneSegment ⟨p64 3 3 1, p64 0 0 1⟩ ⟨p64 1 1 0, p64 4 7 2⟩).isSome := by
  have hM : Spec.dist (fun i => ((p64 4 7 2) i).1) (fun i => ((p64 1 1 0) i).1) = 7 := by
    rw [p64_vals, p64_vals]; exact dist3 _ _ _ _ _ _ 7 (by norm_num) (by norm_num)
  have hW : Spec.dist (fun i => ((p64 3 3 1) i).1) (fun i => ((p64 1 1 0) i).1) = 3 := by
    rw [p64_vals, p64_vals]; exact dist3 _ _ _ _ _ _ 3 (by norm_num) (by norm_num)
  have e : ∀ (n : ℤ) (h : |n| < 2 ^ 53), (fl64 n h).1 = (n : ℝ) := fun _ _ => rfl
  obtain ⟨t, x, h1, h2, -, h3, -⟩ := C105_plane_segment ⟨p64 3 3 1, p64 0 0 1⟩ ⟨p64 1 1 0, p64 4 7 2⟩ Tol.eps (by show 9 ≤ 53; norm_num) emin64
    (by show |Spec.norm (fun i => ((p64 0 0 1) i).1) - 1| ≤ _; rw [unitZ64]; norm_num) (M := 7) (W := 3) (s := 2 / 7) (ω := 1 / 10 ^ 18) (τ := 2 / 10 ^ 6)
    hM.symm (by norm_num) hW.symm
    (by
      intro k hk
      cases hk
      show (2 : ℝ) ^ (-1074 : ℤ) ≤ (2 : ℝ)⁻¹ ^ 53 * (2 : ℝ)⁻¹ ^ 53 * 7
      have : (2 : ℝ) ^ (-1074 : ℤ) ≤ 2 ^ (-106 : ℤ) := zpow_le_zpow_right₀ (by norm_num) (by norm_num)
      refine this.trans ?_
      norm_num)
    (by norm_num)
    (by
      rw [Fin.sum_univ_three]
      simp only [p64, Matrix.cons_val_zero, Matrix.cons_val_one, Matrix.cons_val, e]
      norm_num)
    (by show 64 * (2 : ℝ)⁻¹ ^ 53 ≤ _; norm_num) (by norm_num) (emin64_mul (by norm_num)) (fun x h => isZero64 _ x (by linarith))
    (fun x h => decide_eq_true (by rw [Fl.val_zero]; norm_num at h ⊢; linarith))
    (fun x h => decide_eq_false (by rw [Fl.val_zero]; norm_num at h ⊢; linarith))
    (fun x h => decide_eq_true (by rw [Fl.val_one]; norm_num at h ⊢; linarith))
    (fun x h => decide_eq_false (by rw [Fl.val_one]; norm_num at h ⊢; linarith))
  have ht : t = 1 / 2 := by
    have h3 := (h1.symm.subset (Set.mem_singleton _)).1
    have h3 : ∑ i, (x i - (fun i => ((p64 3 3 1) i).1) i) * (fun i => ((p64 0 0 1) i).1) i = 0 := h3
    rw [h2, Fin.sum_univ_three] at h3
    simp only [Spec.pointAt, p64, Matrix.cons_val_zero, Matrix.cons_val_one, Matrix.cons_val, e] at h3
    norm_num at h3
    linarith
  have h4 := unit64'
  refine h3 ?_ ?_ <;> rw [ht] <;> generalize (2 : ℝ)⁻¹ ^ binary64.prec = μ at h4 ⊢ <;> norm_num at h4 ⊢ <;> linarith
end Examples
end Verif
