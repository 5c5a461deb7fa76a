import Verif.Proofs.FloatVec
import Verif.Proofs.FloatQuadratic
import Verif.Props.FloatPlane
import Verif.Model.Intersect

set_option linter.unusedSectionVars false

/-
C107: intersections of spheres with lines, rays and segments in floating point.
-/
namespace Verif
open Spec

section
variable {F : FloatFormat}

/-! ### Exact operations -/

theorem Fl.double_exact (x : Fl F) : (2 * x).1 = 2 * x.1 := by
  show F.rnd ((2 : Fl F).1 * x.1) = _
  rw [F.two_exact]
  apply F.rounds.exact
  obtain ⟨m, e, h1, h2, h3⟩ := x.2
  refine ⟨m, e + 1, h1, fun k hk => (h2 k hk).trans (by omega), ?_⟩
  rw [h3, zpow_add₀ (by norm_num), zpow_one]; ring

theorem Fl.quadruple_exact (hp : 2 ≤ F.prec) (x : Fl F) : (4 * x).1 = 4 * x.1 := by
  have h4 : (4 : Fl F).1 = 4 := by
    have := F.natCast_exact (n := 4) (by
      unfold FloatFormat.unit
      calc ((4 : ℕ) : ℝ) * 2⁻¹ ^ F.prec ≤ (4 : ℕ) * 2⁻¹ ^ 2 :=
            mul_le_mul_of_nonneg_left (pow_le_pow_of_le_one (by norm_num) (by norm_num) hp) (by norm_num)
        _ ≤ 1 := by norm_num)
    exact_mod_cast this
  show F.rnd ((4 : Fl F).1 * x.1) = _
  rw [h4]
  apply F.rounds.exact
  obtain ⟨m, e, h1, h2, h3⟩ := x.2
  refine ⟨m, e + 2, h1, fun k hk => (h2 k hk).trans (by omega), ?_⟩
  rw [h3, zpow_add₀ (by norm_num)]; norm_num; ring

theorem Fl.dot_comm {D : ℕ} (u v : Vec (Fl F) D) : dot u v = dot v u := by
  have : ∀ a b : Fl F, a * b = b * a := fun a b => Subtype.ext (by show F.rnd _ = F.rnd _; rw [mul_comm])
  unfold dot
  congr 1
  funext acc i
  rw [this]

/-! ### The coefficients -/

/-- The coefficients of the quadratic equation. `d` is the exact direction, `d'` the stored one. -/
theorem sphere_coeffs (l c d' : Vec (Fl F) 3) (d : Vec ℝ 3) (hd : ∀ i, |(d' i).1 - d i| ≤ F.unit * |d i|) (r : Fl F) (hp : 11 ≤ F.prec)
    (ht : F.tiny ≤ F.unit * F.unit) {L W R : ℝ} (hL : L = Spec.norm d) (hW : W = Spec.dist (fun i => (l i).1) (fun i => (c i).1)) (hr : 0 ≤ r.1)
    (hR : R = W + r.1) (t1 : F.tiny ≤ F.unit ^ 2 * L ^ 2) (t2 : F.tiny ≤ F.unit ^ 2 * (L * R)) (t3 : F.tiny ≤ F.unit ^ 2 * R ^ 2) :
    |(dot d' d').1 - L ^ 2| ≤ 902 / 100 * (F.unit * L ^ 2) ∧
    |(dot d' (vsub l c)).1 - ∑ i, ((l i).1 - (c i).1) * d i| ≤ 902 / 100 * (F.unit * (L * R)) ∧
    |∑ i, ((l i).1 - (c i).1) * d i| ≤ L * R ∧
    |(dot (vsub l c) (vsub l c) - r * r).1 - (W ^ 2 - r.1 ^ 2)| ≤ 101 / 10 * (F.unit * R ^ 2) ∧ |W ^ 2 - r.1 ^ 2| ≤ R ^ 2 := by
  have hD : 64 * (3 + 2) ≤ 2 ^ F.prec := le_trans (by norm_num) (Nat.pow_le_pow_right (by norm_num) hp)
  have hu0 := F.unit_pos
  have ht0 := F.tiny_nonneg
  have hu1 : F.unit ≤ 1 / 2048 := by
    unfold FloatFormat.unit
    calc (2 : ℝ)⁻¹ ^ F.prec ≤ 2⁻¹ ^ 11 := pow_le_pow_of_le_one (by norm_num) (by norm_num) hp
      _ = 1 / 2048 := by norm_num
  have hL0 : 0 ≤ L := by rw [hL]; exact norm_nonneg' _
  set w : Vec ℝ 3 := fun i => (l i).1 - (c i).1 with hw
  have hWn : W = Spec.norm w := hW
  have hW0 : 0 ≤ W := by rw [hWn]; exact norm_nonneg' _
  have hWR : W ≤ R := by linarith
  have hR0 : 0 ≤ R := by linarith
  set u := F.unit with hu
  have hsub : ∀ i, |(vsub l c i).1 - w i| ≤ u * |w i| := fun i => Fl.sub_rel _ _
  have hdn : Spec.norm (fun i => (d' i).1 - d i) ≤ u * L := by
    refine (norm_mono hd).trans ?_
    rw [norm_smul' hu0.le, norm_abs', hL]
  have hd'n : Spec.norm (Fl.vals d') ≤ (1 + u) * L := by
    have h1 := norm_sub_norm (Fl.vals d') d
    have h2 : Spec.dist (Fl.vals d') d ≤ u * L := hdn
    rw [← hL] at h1
    have := (abs_le.1 h1).2
    linarith
  have hX1 : 0 ≤ u * L ^ 2 := by positivity
  have hX2 : 0 ≤ u * (L * R) := by positivity
  have hX3 : 0 ≤ u * R ^ 2 := by positivity
  have y1 : u * (u * L ^ 2) ≤ 1 / 2048 * (u * L ^ 2) := mul_le_mul_of_nonneg_right hu1 hX1
  have y2 : u * (u * (L * R)) ≤ 1 / 2048 * (u * (L * R)) := mul_le_mul_of_nonneg_right hu1 hX2
  have y3 : u * (u * R ^ 2) ≤ 1 / 2048 * (u * R ^ 2) := mul_le_mul_of_nonneg_right hu1 hX3
  refine ⟨?_, ?_, ?_, ?_, ?_⟩
  · have h := dot_abs d' d' d hd hD ht
    rw [← hL] at h
    have h3 : |∑ i, d i * (d' i).1 - L ^ 2| ≤ u * L ^ 2 := by
      have e : ∑ i, d i * (d' i).1 - L ^ 2 = ∑ i, d i * ((d' i).1 - d i) := by
        rw [hL, norm_sq', ← Finset.sum_sub_distrib]
        exact Finset.sum_congr rfl fun i _ => by ring
      rw [e]
      refine (abs_dp_le d (fun i => (d' i).1 - d i)).trans ?_
      rw [← hL]
      calc L * Spec.norm (fun i => (d' i).1 - d i) ≤ L * (u * L) := mul_le_mul_of_nonneg_left hdn hL0
        _ = u * L ^ 2 := by ring
    have h5 : u * (L * Spec.norm (Fl.vals d')) ≤ u * L ^ 2 + u * (u * L ^ 2) := by
      have h1 := mul_le_mul_of_nonneg_left (mul_le_mul_of_nonneg_left hd'n hL0) hu0.le
      have h2 : u * (L * ((1 + u) * L)) = u * L ^ 2 + u * (u * L ^ 2) := by ring
      linarith
    push_cast at h
    have := abs_sub_le (dot d' d').1 (∑ i, d i * (d' i).1) (L ^ 2)
    linarith
  · have h := dot_abs (vsub l c) d' w hsub hD ht
    rw [Fl.dot_comm, ← hWn] at h
    have hWL : u * (W * L) ≤ u * (L * R) := by
      rw [mul_comm W L]; exact mul_le_mul_of_nonneg_left (mul_le_mul_of_nonneg_left hWR hL0) hu0.le
    have h3 : |∑ i, w i * (d' i).1 - ∑ i, w i * d i| ≤ u * (L * R) := by
      rw [← Finset.sum_sub_distrib]
      have e : ∑ i, (w i * (d' i).1 - w i * d i) = ∑ i, w i * ((d' i).1 - d i) := Finset.sum_congr rfl fun i _ => by ring
      rw [e]
      refine (abs_dp_le w (fun i => (d' i).1 - d i)).trans ?_
      rw [← hWn]
      have := mul_le_mul_of_nonneg_left hdn hW0
      linarith
    have h5 : u * (W * Spec.norm (Fl.vals d')) ≤ u * (L * R) + u * (u * (L * R)) := by
      have h1 := mul_le_mul_of_nonneg_left (mul_le_mul_of_nonneg_left hd'n hW0) hu0.le
      have h2 : u * (W * ((1 + u) * L)) = u * (W * L) + u * (u * (W * L)) := by ring
      have h6 := mul_le_mul_of_nonneg_left hWL hu0.le
      linarith
    push_cast at h
    have := abs_sub_le (dot d' (vsub l c)).1 (∑ i, w i * (d' i).1) (∑ i, w i * d i)
    linarith
  · have h := abs_dp_le w d
    rw [← hL, ← hWn] at h
    refine h.trans ?_
    rw [mul_comm]; exact mul_le_mul_of_nonneg_left hWR hL0
  · have h := dot_abs (vsub l c) (vsub l c) w hsub hD ht
    rw [← hWn] at h
    set W' := Spec.norm (Fl.vals (vsub l c)) with hW'
    have hW'1 : W' ≤ (1 + u) * W := by
      have h1 := norm_sub_norm (Fl.vals (vsub l c)) w
      have h2 : Spec.dist (Fl.vals (vsub l c)) w ≤ u * W := by
        show Spec.norm (fun i => (vsub l c i).1 - w i) ≤ _
        refine (norm_mono hsub).trans ?_
        rw [norm_smul' hu0.le, norm_abs', hWn]
      rw [← hWn] at h1
      have := (abs_le.1 h1).2
      linarith
    have h3 : |∑ i, w i * (vsub l c i).1 - W ^ 2| ≤ u * W ^ 2 := by
      have e : ∑ i, w i * (vsub l c i).1 - W ^ 2 = ∑ i, w i * ((vsub l c i).1 - w i) := by
        rw [hWn, norm_sq', ← Finset.sum_sub_distrib]
        exact Finset.sum_congr rfl fun i _ => by ring
      rw [e]
      have h4 : Spec.norm (fun i => (vsub l c i).1 - w i) ≤ u * W := by
        refine (norm_mono hsub).trans ?_
        rw [norm_smul' hu0.le, norm_abs', hWn]
      refine (abs_dp_le w (fun i => (vsub l c i).1 - w i)).trans ?_
      rw [← hWn]
      calc W * Spec.norm (fun i => (vsub l c i).1 - w i) ≤ W * (u * W) := mul_le_mul_of_nonneg_left h4 hW0
        _ = u * W ^ 2 := by ring
    have hW2 : W ^ 2 ≤ R ^ 2 := pow_le_pow_left₀ hW0 hWR 2
    have hrr : 0 ≤ r.1 ^ 2 := sq_nonneg _
    have hsum : W ^ 2 + r.1 ^ 2 ≤ R ^ 2 := by
      rw [hR]; have := mul_nonneg hW0 hr; linarith [sq (W + r.1), sq W, sq r.1]
    have huW : 0 ≤ u * W ^ 2 := by positivity
    have hur : 0 ≤ u * r.1 ^ 2 := by positivity
    have husum : u * W ^ 2 + u * r.1 ^ 2 ≤ u * R ^ 2 := by
      have := mul_le_mul_of_nonneg_left hsum hu0.le
      linarith
    have y4 : u * (u * W ^ 2) ≤ 1 / 2048 * (u * W ^ 2) := mul_le_mul_of_nonneg_right hu1 huW
    have y5 : u * (u * r.1 ^ 2) ≤ 1 / 2048 * (u * r.1 ^ 2) := mul_le_mul_of_nonneg_right hu1 hur
    have h5 : u * (W * W') ≤ u * W ^ 2 + u * (u * W ^ 2) := by
      have h1 := mul_le_mul_of_nonneg_left (mul_le_mul_of_nonneg_left hW'1 hW0) hu0.le
      have h2 : u * (W * ((1 + u) * W)) = u * W ^ 2 + u * (u * W ^ 2) := by ring
      linarith
    set ww := (dot (vsub l c) (vsub l c)).1 with hww
    push_cast at h
    have hwwe : |ww - W ^ 2| ≤ 9005 / 1000 * (u * W ^ 2) + 10 * F.tiny := by
      have := abs_sub_le ww (∑ i, w i * (vsub l c i).1) (W ^ 2)
      linarith
    have hre : |(r * r).1 - r.1 ^ 2| ≤ u * r.1 ^ 2 + F.tiny := by
      have := F.err (r.1 * r.1)
      rw [← sq, abs_of_nonneg hrr] at this
      show |F.rnd (r.1 * r.1) - _| ≤ _
      rw [← sq]
      exact this
    have hde : |(dot (vsub l c) (vsub l c) - r * r).1 - (ww - (r * r).1)| ≤ u * |ww - (r * r).1| := Fl.sub_rel _ _
    have h6 : |(ww - (r * r).1) - (W ^ 2 - r.1 ^ 2)| ≤ 9005 / 1000 * (u * W ^ 2) + u * r.1 ^ 2 + 11 * F.tiny := by
      have e : (ww - (r * r).1) - (W ^ 2 - r.1 ^ 2) = (ww - W ^ 2) - ((r * r).1 - r.1 ^ 2) := by ring
      rw [e]
      have := abs_sub (ww - W ^ 2) ((r * r).1 - r.1 ^ 2)
      linarith
    have h7 : |W ^ 2 - r.1 ^ 2| ≤ W ^ 2 + r.1 ^ 2 := by
      rw [abs_le]; constructor <;> linarith [sq_nonneg W]
    have h8 := mul_le_mul_of_nonneg_left (abs_le_of_close h6 h7) hu0.le
    have h9 := abs_sub_le (dot (vsub l c) (vsub l c) - r * r).1 (ww - (r * r).1) (W ^ 2 - r.1 ^ 2)
    have h10 : u * F.tiny ≤ 1 / 2048 * F.tiny := mul_le_mul_of_nonneg_right hu1 ht0
    linarith
  · have hsum : W ^ 2 + r.1 ^ 2 ≤ R ^ 2 := by
      rw [hR]; have := mul_nonneg hW0 hr; linarith [sq (W + r.1), sq W, sq r.1]
    rw [abs_le]; constructor <;> linarith [sq_nonneg W, sq_nonneg r.1]

/-- The distance from the centre, squared, along the line. -/
theorem sphere_residual (l c d : Vec ℝ 3) (t : ℝ) :
    Spec.dist (Spec.pointAt l d t) c ^ 2 = Spec.norm d ^ 2 * t ^ 2 + 2 * (∑ i, (l i - c i) * d i) * t + Spec.dist l c ^ 2 := by
  have h1 : ∀ a b : Vec ℝ 3, Spec.dist a b ^ 2 = ∑ i, (a i - b i) ^ 2 := fun a b => norm_sq' (fun i => a i - b i)
  rw [h1, h1, norm_sq']
  simp only [Fin.sum_univ_three, Spec.pointAt]
  ring

/-- Everything about a computed parameter. `h` is half the length of the chord. -/
theorem sphere_param (l c d' : Vec (Fl F) 3) (d : Vec ℝ 3) (hd : ∀ i, |(d' i).1 - d i| ≤ F.unit * |d i|) (r : Fl F) (hp : 11 ≤ F.prec) (ht : F.tiny ≤ F.unit * F.unit) {L W R : ℝ}
    (hL : L = Spec.norm d) (hL0 : 0 < L) (hW : W = Spec.dist (fun i => (l i).1) (fun i => (c i).1)) (hr : 0 ≤ r.1) (hR : R = W + r.1)
    (t1 : F.tiny ≤ F.unit ^ 2 * L ^ 2) (t2 : F.tiny ≤ F.unit ^ 2 * (L * R)) (t3 : F.tiny ≤ F.unit ^ 2 * R ^ 2)
    (t4 : F.tiny ≤ F.unit ^ 2 * (L * R) ^ 2) (t5 : L * F.tiny ≤ F.unit ^ 2 * R) {a b cc D : Fl F} (ha : a = dot d' d')
    (hb : b = 2 * dot d' (vsub l c)) (hcc : cc = dot (vsub l c) (vsub l c) - r * r) (hDd : D = b * b - 4 * a * cc) {B : ℝ}
    (hB : B = ∑ i, ((l i).1 - (c i).1) * d i) :
    |D.1 - 4 * (B ^ 2 - L ^ 2 * (W ^ 2 - r.1 ^ 2))| ≤ 166 * (F.unit * (L * R) ^ 2) ∧
    (0 ≤ D.1 → ∀ σ t, (σ = 1 ∧ t = (-b + HasSqrt.sqrt D) / (2 * a) ∨ σ = -1 ∧ t = (-b - HasSqrt.sqrt D) / (2 * a)) →
      L * |t.1| ≤ 205 / 100 * R ∧
      |Spec.dist (Spec.pointAt (fun i => (l i).1) d t.1) (fun i => (c i).1) ^ 2 - r.1 ^ 2| ≤ 110 * (F.unit * R ^ 2) ∧
      ∀ h, 0 < h → h ≤ R → L ^ 2 * h ^ 2 = B ^ 2 - L ^ 2 * (W ^ 2 - r.1 ^ 2) →
        L * |t.1 - (-B + σ * (L * h)) / L ^ 2| ≤ 75 * (F.unit * (R ^ 2 / h))) := by
  have hu0 := F.unit_pos
  have ht0 := F.tiny_nonneg
  have hu1 : F.unit ≤ 1 / 2048 := by
    unfold FloatFormat.unit
    calc (2 : ℝ)⁻¹ ^ F.prec ≤ 2⁻¹ ^ 11 := pow_le_pow_of_le_one (by norm_num) (by norm_num) hp
      _ = 1 / 2048 := by norm_num
  obtain ⟨k1, k2, k3, k4, k5⟩ := sphere_coeffs l c d' d hd r hp ht hL hW hr hR t1 t2 t3
  rw [← ha] at k1
  rw [← hB] at k2 k3
  rw [← hcc] at k4
  have hW0 : 0 ≤ W := by rw [hW]; exact norm_nonneg' _
  have hR0 : 0 ≤ R := by linarith
  set q := (dot d' (vsub l c)).1 with hq
  have hb1 : b.1 = 2 * q := by rw [hb, Fl.double_exact]
  have h4a : (4 * a).1 = 4 * a.1 := Fl.quadruple_exact (by omega) a
  have h2a : (2 * a).1 = 2 * a.1 := Fl.double_exact a
  set u := F.unit with hu
  have hLR0 : 0 ≤ L * R := by positivity
  have hDe : |D.1 - 4 * (B ^ 2 - L ^ 2 * (W ^ 2 - r.1 ^ 2))| ≤ 166 * (u * (L * R) ^ 2) := by
    refine quad_disc (T := F.tiny) (x1 := (b * b).1) (x2 := (4 * a * cc).1) hu0 hu1 (sq_nonneg L) (sq_nonneg R) hLR0 (mul_pow L R 2) k1 k2 k3 k4 k5 t4 ?_ ?_ ?_
    · have := F.err (b.1 * b.1); rw [hb1] at this; rw [← hb1] at this ⊢; exact this
    · have := F.err ((4 * a).1 * cc.1); rw [h4a] at this; show |F.rnd ((4 * a).1 * cc.1) - _| ≤ _; rw [h4a]; exact this
    · rw [hDd]; exact Fl.sub_rel _ _
  refine ⟨hDe, ?_⟩
  intro hDp σ t hσ
  have hD0 : 4 * (B ^ 2 - L ^ 2 * (W ^ 2 - r.1 ^ 2)) ≤ 4 * (L * R) ^ 2 := by
    have h1 : B ^ 2 ≤ (L * W) ^ 2 := by
      have h := abs_dp_le (fun i => (l i).1 - (c i).1) d
      rw [← hB, ← hL] at h
      change _ ≤ Spec.dist (fun i => (l i).1) (fun i => (c i).1) * L at h
      rw [← hW, mul_comm W L] at h
      rw [← sq_abs B]
      exact pow_le_pow_left₀ (abs_nonneg _) h 2
    have h2 : r.1 ^ 2 ≤ R ^ 2 := pow_le_pow_left₀ hr (by linarith) 2
    have h3 := mul_le_mul_of_nonneg_left h2 (sq_nonneg L)
    have e1 : (L * W) ^ 2 = L ^ 2 * W ^ 2 := by ring
    have e2 : (L * R) ^ 2 = L ^ 2 * R ^ 2 := by ring
    rw [e1] at h1
    rw [e2]
    linarith
  have hT2 : L ^ 2 * F.tiny ≤ u ^ 2 * (L * R) := by
    have := mul_le_mul_of_nonneg_left t5 hL0.le
    linarith
  obtain ⟨g1, g2, g3, g4⟩ := quad_root (n := 2 * a.1 * 0 + (if σ = 1 then (-b + HasSqrt.sqrt D).1 else (-b - HasSqrt.sqrt D).1))
    (s := (HasSqrt.sqrt D).1) (t := t.1) (σ := σ) (T1 := F.tiny) (T2 := F.tiny) hu0 hu1 (by positivity : 0 < L ^ 2) hLR0 k1 k2 k3 hD0 hDe hDp
    (F.err _) t2 (by rcases hσ with h | h; exacts [.inl h.1, .inr h.1])
    (by
      rw [mul_zero, zero_add]
      rcases hσ with ⟨rfl, rfl⟩ | ⟨rfl, rfl⟩
      · rw [if_pos rfl, one_mul]
        have := Fl.add_rel (-b) (HasSqrt.sqrt D)
        rw [Fl.val_neg, hb1] at this
        exact this
      · rw [if_neg (by norm_num)]
        have := Fl.sub_rel (-b) (HasSqrt.sqrt D)
        rw [Fl.val_neg, hb1] at this
        rw [show -(2 * q) + -1 * (HasSqrt.sqrt D).1 = -(2 * q) - (HasSqrt.sqrt D).1 by ring]
        exact this)
    (by
      rw [mul_zero, zero_add]
      rcases hσ with ⟨rfl, rfl⟩ | ⟨rfl, rfl⟩
      · rw [if_pos rfl]
        have := F.err ((-b + HasSqrt.sqrt D).1 / (2 * a).1)
        rw [h2a] at this
        rw [Fl.val_div, h2a]
        exact this
      · rw [if_neg (by norm_num)]
        have := F.err ((-b - HasSqrt.sqrt D).1 / (2 * a).1)
        rw [h2a] at this
        rw [Fl.val_div, h2a]
        exact this) hT2
  refine ⟨?_, ?_, ?_⟩
  · have : L * (L * |t.1|) ≤ L * (205 / 100 * R) := by linarith
    exact le_of_mul_le_mul_left this hL0
  · rw [sphere_residual, ← hL, ← hW, ← hB]
    have e : (2 * L ^ 2 * t.1 + 2 * B) ^ 2 - 4 * (B ^ 2 - L ^ 2 * (W ^ 2 - r.1 ^ 2))
        = 4 * L ^ 2 * (L ^ 2 * t.1 ^ 2 + 2 * B * t.1 + W ^ 2 - r.1 ^ 2) := by ring
    rw [e, abs_mul, abs_of_pos (by positivity : 0 < 4 * L ^ 2)] at g4
    have h1 : 4 * L ^ 2 * |L ^ 2 * t.1 ^ 2 + 2 * B * t.1 + W ^ 2 - r.1 ^ 2| ≤ 4 * L ^ 2 * (110 * (u * R ^ 2)) := by
      refine g4.trans (le_of_eq ?_); ring
    exact le_of_mul_le_mul_left h1 (by positivity)
  · intro h hh hhR he
    have hsq := sqrt_close (h := 2 * (L * h)) (y := 4 * (B ^ 2 - L ^ 2 * (W ^ 2 - r.1 ^ 2))) hDp (by positivity) (by rw [← he]; ring) hDe
    have e1 : 166 * (u * (L * R) ^ 2) / (2 * (L * h)) = 83 * (u * (L * (R ^ 2 / h))) := by field_simp; ring
    rw [e1] at hsq
    have hRh : R ≤ R ^ 2 / h := by
      rw [le_div_iff₀ hh, sq]; exact mul_le_mul_of_nonneg_left hhR hR0
    have h1 : u * (L * R) ≤ u * (L * (R ^ 2 / h)) := mul_le_mul_of_nonneg_left (mul_le_mul_of_nonneg_left hRh hL0.le) hu0.le
    have hσ1 : |σ| = 1 := by rcases hσ with h | h <;> rw [h.1] <;> norm_num
    have e2 : 2 * L ^ 2 * (t.1 - (-B + σ * (L * h)) / L ^ 2)
        = (2 * L ^ 2 * t.1 + 2 * B - σ * (HasSqrt.sqrt D).1) + σ * (((HasSqrt.sqrt D).1 - Real.sqrt D.1) + (Real.sqrt D.1 - 2 * (L * h))) := by
      field_simp; ring
    have h2 : 2 * L ^ 2 * |t.1 - (-B + σ * (L * h)) / L ^ 2| ≤ 64 * (u * (L * R)) + (21 / 10 * (u * (L * R)) + 83 * (u * (L * (R ^ 2 / h)))) := by
      rw [← abs_of_pos (by positivity : 0 < 2 * L ^ 2), ← abs_mul, e2]
      refine (abs_add_le _ _).trans (add_le_add g1 ?_)
      rw [abs_mul, hσ1, one_mul]
      exact (abs_add_le _ _).trans (add_le_add g2 hsq)
    have h3 : (2 * L) * (L * |t.1 - (-B + σ * (L * h)) / L ^ 2|) ≤ (2 * L) * (75 * (u * (R ^ 2 / h))) := by
      have h4 : 0 ≤ u * (L * (R ^ 2 / h)) := by positivity
      linarith
    exact le_of_mul_le_mul_left h3 (by positivity)

/-- The point at a computed parameter. -/
theorem hit_point (l d' : Vec (Fl F) 3) (d : Vec ℝ 3) (hd : ∀ i, |(d' i).1 - d i| ≤ F.unit * |d i|) (t : Fl F) (hu1 : F.unit ≤ 1 / 2048) {L R : ℝ}
    (hL : L = Spec.norm d) (hR0 : 0 ≤ R) (ht : L * |t.1| ≤ 205 / 100 * R) (t6 : F.tiny ≤ F.unit ^ 2 * R) (i : Fin 3) :
    |(vadd l (vscale d' t) i).1 - Spec.pointAt (fun i => (l i).1) d t.1 i|
      ≤ F.unit * |Spec.pointAt (fun i => (l i).1) d t.1 i| + 5 * (F.unit * R) := by
  have hu0 := F.unit_pos
  set u := F.unit with hu
  have h1 : |d i| * |t.1| ≤ 205 / 100 * R :=
    le_trans (mul_le_mul_of_nonneg_right (by rw [hL]; exact coord_le_norm d i) (abs_nonneg _)) ht
  have h2 : |(d' i).1 * t.1 - t.1 * d i| ≤ 205 / 100 * (u * R) := by
    have e : (d' i).1 * t.1 - t.1 * d i = ((d' i).1 - d i) * t.1 := by ring
    rw [e, abs_mul]
    have h3 := mul_le_mul_of_nonneg_right (hd i) (abs_nonneg t.1)
    have h4 := mul_le_mul_of_nonneg_left h1 hu0.le
    linarith
  have hX : 0 ≤ u * R := by positivity
  have huX : u * (u * R) ≤ 1 / 2048 * (u * R) := mul_le_mul_of_nonneg_right hu1 hX
  have h5 : |(d' i).1 * t.1| ≤ 205 / 100 * R + 205 / 100 * (u * R) :=
    abs_le_of_close h2 (by rw [mul_comm, abs_mul]; exact h1)
  have h6 : |(vscale d' t i).1 - (d' i).1 * t.1| ≤ u * |(d' i).1 * t.1| + F.tiny := F.err _
  have h7 : |(vscale d' t i).1 - t.1 * d i| ≤ 412 / 100 * (u * R) := by
    have h8 := mul_le_mul_of_nonneg_left h5 hu0.le
    have h9 := abs_sub_le (vscale d' t i).1 ((d' i).1 * t.1) (t.1 * d i)
    have h10 : u ^ 2 * R = u * (u * R) := by ring
    linarith
  have h8 : |(vadd l (vscale d' t) i).1 - ((l i).1 + (vscale d' t i).1)| ≤ u * |(l i).1 + (vscale d' t i).1| := Fl.add_rel _ _
  have e : Spec.pointAt (fun i => (l i).1) d t.1 i = (l i).1 + t.1 * d i := rfl
  rw [e]
  have h9 : |(l i).1 + (vscale d' t i).1 - ((l i).1 + t.1 * d i)| ≤ 412 / 100 * (u * R) := by
    rw [add_sub_add_left_eq_sub]; exact h7
  have h10 : |(l i).1 + (vscale d' t i).1| ≤ |(l i).1 + t.1 * d i| + 412 / 100 * (u * R) := abs_le_of_close h9 le_rfl
  have h11 := mul_le_mul_of_nonneg_left h10 hu0.le
  have h12 := abs_sub_le (vadd l (vscale d' t) i).1 ((l i).1 + (vscale d' t i).1) ((l i).1 + t.1 * d i)
  linarith

/-- A sphere and a line that crosses it. -/
theorem sphere_meet (l c d : Vec ℝ 3) {r h L W B : ℝ} (hL : L = Spec.norm d) (hL0 : 0 < L) (hW : W = Spec.dist l c) (hr : 0 ≤ r)
    (hB : B = ∑ i, (l i - c i) * d i) (he : L ^ 2 * h ^ 2 = B ^ 2 - L ^ 2 * (W ^ 2 - r ^ 2)) :
    Spec.sphere c r ∩ Spec.line l d = {Spec.pointAt l d ((-B + 1 * (L * h)) / L ^ 2), Spec.pointAt l d ((-B + -1 * (L * h)) / L ^ 2)} := by
  have key : ∀ t, Spec.dist (Spec.pointAt l d t) c = r ↔ (L ^ 2 * t + B - L * h) * (L ^ 2 * t + B + L * h) = 0 := by
    intro t
    have h1 := sphere_residual l c d t
    rw [← hL, ← hW, ← hB] at h1
    have h2 : 0 ≤ Spec.dist (Spec.pointAt l d t) c := Real.sqrt_nonneg _
    have h3 : (L ^ 2 * t + B - L * h) * (L ^ 2 * t + B + L * h) = L ^ 2 * (Spec.dist (Spec.pointAt l d t) c ^ 2 - r ^ 2) := by
      rw [h1]; linear_combination -he
    rw [h3, mul_eq_zero, or_iff_right (by positivity), sub_eq_zero]
    exact (pow_left_inj₀ h2 hr (by norm_num)).symm
  ext p
  simp only [Set.mem_inter_iff, Set.mem_insert_iff, Set.mem_singleton_iff]
  constructor
  · rintro ⟨h1, t, rfl⟩
    rcases mul_eq_zero.1 ((key t).1 h1) with h2 | h2
    · left; congr 1; rw [eq_div_iff (by positivity)]; linarith
    · right; congr 1; rw [eq_div_iff (by positivity)]; linarith
  · rintro (rfl | rfl)
    · refine ⟨(key _).2 ?_, _, rfl⟩
      rw [mul_div_cancel₀ _ (by positivity)]; ring
    · refine ⟨(key _).2 ?_, _, rfl⟩
      rw [mul_div_cancel₀ _ (by positivity)]; ring

/-- Everything about the points computed from the two roots. -/
theorem sphere_hit (l c d' : Vec (Fl F) 3) (d : Vec ℝ 3) (hd : ∀ i, |(d' i).1 - d i| ≤ F.unit * |d i|) (r : Fl F) (hp : 11 ≤ F.prec)
    (ht : F.tiny ≤ F.unit * F.unit) {L R : ℝ} (hL : L = Spec.norm d) (hL0 : 0 < L) (hr : 0 < r.1)
    (hR : R = Spec.dist (fun i => (l i).1) (fun i => (c i).1) + r.1) (t1 : F.tiny ≤ F.unit ^ 2 * L ^ 2) (t2 : F.tiny ≤ F.unit ^ 2 * (L * r.1))
    (t3 : F.tiny ≤ F.unit ^ 2 * r.1 ^ 2) (t4 : F.tiny ≤ F.unit ^ 2 * (L * r.1) ^ 2) (t5 : L * F.tiny ≤ F.unit ^ 2 * r.1)
    {a b cc D : Fl F} (ha : a = dot d' d')
    (hb : b = 2 * dot d' (vsub l c)) (hcc : cc = dot (vsub l c) (vsub l c) - r * r) (hDd : D = b * b - 4 * a * cc) :
    ∃ δ, Spec.IsDistance {fun i => (c i).1} (Spec.line (fun i => (l i).1) d) δ ∧
      |D.1 - 4 * L ^ 2 * (r.1 ^ 2 - δ ^ 2)| ≤ 166 * (F.unit * (L * R) ^ 2) ∧
      (0 ≤ D.1 → ∀ t, (t = (-b + HasSqrt.sqrt D) / (2 * a) ∨ t = (-b - HasSqrt.sqrt D) / (2 * a)) →
        r.1 * |Spec.dist (Spec.pointAt (fun i => (l i).1) d t.1) (fun i => (c i).1) - r.1| ≤ 110 * (F.unit * R ^ 2) ∧
        ∀ i, |(vadd l (vscale d' t) i).1 - Spec.pointAt (fun i => (l i).1) d t.1 i|
          ≤ F.unit * |Spec.pointAt (fun i => (l i).1) d t.1 i| + 5 * (F.unit * R)) ∧
      (0 ≤ D.1 → δ < r.1 → ∃ s₁ s₂, s₂ < s₁ ∧
        Spec.sphere (fun i => (c i).1) r.1 ∩ Spec.line (fun i => (l i).1) d
          = {Spec.pointAt (fun i => (l i).1) d s₁, Spec.pointAt (fun i => (l i).1) d s₂} ∧
        ∀ s t, (s = s₁ ∧ t = (-b + HasSqrt.sqrt D) / (2 * a) ∨ s = s₂ ∧ t = (-b - HasSqrt.sqrt D) / (2 * a)) →
          L * |t.1 - s| ≤ 75 * (F.unit * (R ^ 2 / Real.sqrt (r.1 ^ 2 - δ ^ 2))) ∧
          ∀ i, |(vadd l (vscale d' t) i).1 - Spec.pointAt (fun i => (l i).1) d s i|
            ≤ F.unit * |Spec.pointAt (fun i => (l i).1) d s i| + 81 * (F.unit * (R ^ 2 / Real.sqrt (r.1 ^ 2 - δ ^ 2)))) := by
  have hu0 := F.unit_pos
  have ht0 := F.tiny_nonneg
  have hu1 : F.unit ≤ 1 / 2048 := by
    unfold FloatFormat.unit
    calc (2 : ℝ)⁻¹ ^ F.prec ≤ 2⁻¹ ^ 11 := pow_le_pow_of_le_one (by norm_num) (by norm_num) hp
      _ = 1 / 2048 := by norm_num
  obtain ⟨W, hW⟩ : ∃ W, W = Spec.dist (fun i => (l i).1) (fun i => (c i).1) := ⟨_, rfl⟩
  obtain ⟨B, hB⟩ : ∃ B, B = ∑ i, ((l i).1 - (c i).1) * d i := ⟨_, rfl⟩
  have hW0 : 0 ≤ W := by rw [hW]; exact norm_nonneg' _
  rw [← hW] at hR
  have hrR : r.1 ≤ R := by linarith
  have hR0 : 0 < R := by linarith
  have hu2 : 0 ≤ F.unit ^ 2 := by positivity
  have hLrR : L * r.1 ≤ L * R := mul_le_mul_of_nonneg_left hrR hL0.le
  have t2' := t2.trans (mul_le_mul_of_nonneg_left hLrR hu2)
  have t3' := t3.trans (mul_le_mul_of_nonneg_left (pow_le_pow_left₀ hr.le hrR 2) hu2)
  have t4' := t4.trans (mul_le_mul_of_nonneg_left (pow_le_pow_left₀ (by positivity) hLrR 2) hu2)
  have t5' := t5.trans (mul_le_mul_of_nonneg_left hrR hu2)
  have t6 : F.tiny ≤ F.unit ^ 2 * R := by
    rcases le_total L 1 with h | h
    · refine t2'.trans (mul_le_mul_of_nonneg_left ?_ hu2)
      have := mul_le_mul_of_nonneg_right h hR0.le
      linarith
    · have := mul_le_mul_of_nonneg_right h ht0
      linarith
  obtain ⟨hDe, hroot⟩ := sphere_param l c d' d hd r hp ht hL hL0 hW hr.le hR t1 t2' t3' t4' t5' ha hb hcc hDd hB
  have hdist := line_distance (fun i => (c i).1) (fun i => (l i).1) d (by rw [← hL]; exact hL0)
  have hrej := norm_rejection (fun i => (l i).1 - (c i).1) d (by rw [← hL]; exact hL0)
  rw [← hB, ← hL] at hdist
  rw [← hB, ← hL] at hrej
  set δ := Spec.norm (fun i => ((l i).1 - (c i).1) - B / L ^ 2 * d i) with hδ
  have hδ0 : 0 ≤ δ := norm_nonneg' _
  have hWn : Spec.norm (fun i => (l i).1 - (c i).1) = W := hW.symm
  rw [hWn] at hrej
  have hkey : L ^ 2 * (r.1 ^ 2 - δ ^ 2) = B ^ 2 - L ^ 2 * (W ^ 2 - r.1 ^ 2) := by
    rw [← hrej]; field_simp; ring
  have hkey4 : 4 * L ^ 2 * (r.1 ^ 2 - δ ^ 2) = 4 * (B ^ 2 - L ^ 2 * (W ^ 2 - r.1 ^ 2)) := by rw [← hkey]; ring
  refine ⟨δ, hdist, by rw [hkey4]; exact hDe, ?_, ?_⟩
  · intro hDp t htt
    obtain ⟨σ, hσ⟩ : ∃ σ : ℝ, σ = 1 ∧ t = (-b + HasSqrt.sqrt D) / (2 * a) ∨ σ = -1 ∧ t = (-b - HasSqrt.sqrt D) / (2 * a) := by
      rcases htt with h | h
      · exact ⟨1, .inl ⟨rfl, h⟩⟩
      · exact ⟨-1, .inr ⟨rfl, h⟩⟩
    obtain ⟨g1, g2, -⟩ := hroot hDp σ t hσ
    refine ⟨?_, fun i => hit_point l d' d hd t hu1 hL hR0.le g1 t6 i⟩
    refine le_trans ?_ g2
    have hp0 : 0 ≤ Spec.dist (Spec.pointAt (fun i => (l i).1) d t.1) (fun i => (c i).1) := Real.sqrt_nonneg _
    rw [sq_sub_sq, abs_mul, abs_of_nonneg (by linarith : 0 ≤ _ + r.1)]
    exact mul_le_mul_of_nonneg_right (by linarith) (abs_nonneg _)
  · intro hDp hlt
    have hpos : 0 < r.1 ^ 2 - δ ^ 2 := by
      rw [sq_sub_sq]; exact mul_pos (by linarith) (by linarith)
    obtain ⟨h, hh⟩ : ∃ h, h = Real.sqrt (r.1 ^ 2 - δ ^ 2) := ⟨_, rfl⟩
    have hh0 : 0 < h := by rw [hh]; exact Real.sqrt_pos.2 hpos
    have hhsq : h ^ 2 = r.1 ^ 2 - δ ^ 2 := by rw [hh]; exact Real.sq_sqrt hpos.le
    have hhR : h ≤ R := by
      refine le_trans ?_ hrR
      refine abs_le_of_sq_le_sq' ?_ hr.le |>.2
      rw [hhsq]; have := sq_nonneg δ; linarith
    have he : L ^ 2 * h ^ 2 = B ^ 2 - L ^ 2 * (W ^ 2 - r.1 ^ 2) := by rw [hhsq]; exact hkey
    rw [← hh]
    refine ⟨(-B + 1 * (L * h)) / L ^ 2, (-B + -1 * (L * h)) / L ^ 2, ?_, sphere_meet _ _ d hL hL0 hW hr.le hB he, ?_⟩
    · apply div_lt_div_of_pos_right _ (by positivity)
      have := mul_pos hL0 hh0
      linarith
    · intro s t hst
      obtain ⟨σ, hσ, hs⟩ : ∃ σ : ℝ, (σ = 1 ∧ t = (-b + HasSqrt.sqrt D) / (2 * a) ∨ σ = -1 ∧ t = (-b - HasSqrt.sqrt D) / (2 * a)) ∧
          s = (-B + σ * (L * h)) / L ^ 2 := by
        rcases hst with h | h
        · exact ⟨1, .inl ⟨rfl, h.2⟩, h.1⟩
        · exact ⟨-1, .inr ⟨rfl, h.2⟩, h.1⟩
      obtain ⟨g1, -, g3⟩ := hroot hDp σ t hσ
      have g4 := g3 h hh0 hhR he
      rw [← hs] at g4
      refine ⟨g4, fun i => ?_⟩
      have k1 := hit_point l d' d hd t hu1 hL hR0.le g1 t6 i
      have k2 : |Spec.pointAt (fun i => (l i).1) d t.1 i - Spec.pointAt (fun i => (l i).1) d s i| ≤ 75 * (F.unit * (R ^ 2 / h)) := by
        have e : Spec.pointAt (fun i => (l i).1) d t.1 i - Spec.pointAt (fun i => (l i).1) d s i = (t.1 - s) * d i := by
          simp only [Spec.pointAt]; ring
        rw [e, abs_mul, mul_comm]
        exact (mul_le_mul_of_nonneg_right (by rw [hL]; exact coord_le_norm d i) (abs_nonneg _)).trans g4
      have hRh : R ≤ R ^ 2 / h := by
        rw [le_div_iff₀ hh0, sq]; exact mul_le_mul_of_nonneg_left hhR hR0.le
      have k3 : F.unit * R ≤ F.unit * (R ^ 2 / h) := mul_le_mul_of_nonneg_left hRh hu0.le
      have k4 : 0 ≤ F.unit * (R ^ 2 / h) := by positivity
      have k5 : F.unit * (F.unit * (R ^ 2 / h)) ≤ 1 / 2048 * (F.unit * (R ^ 2 / h)) := mul_le_mul_of_nonneg_right hu1 k4
      have k6 := mul_le_mul_of_nonneg_left (abs_le_of_close k2 le_rfl) hu0.le
      have k7 := abs_sub_le (vadd l (vscale d' t) i).1 (Spec.pointAt (fun i => (l i).1) d t.1 i) (Spec.pointAt (fun i => (l i).1) d s i)
      linarith

theorem unit_le_2048 (hp : 11 ≤ F.prec) : F.unit ≤ 1 / 2048 := by
  unfold FloatFormat.unit
  calc (2 : ℝ)⁻¹ ^ F.prec ≤ 2⁻¹ ^ 11 := pow_le_pow_of_le_one (by norm_num) (by norm_num) hp
    _ = 1 / 2048 := by norm_num

theorem tiny_le_of {x : ℝ} (hx : 0 ≤ x) (h : ∀ k, F.emin = some k → (2 : ℝ) ^ k ≤ x) : F.tiny ≤ x := by
  unfold FloatFormat.tiny
  split
  · exact hx
  · rename_i k hk; exact h k hk

theorem Fl.half_neg_double (b q : Fl F) (h : b.1 = 2 * q.1) : (-b / 2).1 = -q.1 := by
  rw [Fl.val_div, Fl.val_neg, F.two_exact, h]
  have : -(2 * q.1) / 2 = (-q).1 := by rw [Fl.val_neg]; ring
  rw [this, ← Fl.val_neg]
  exact F.rounds.exact (-q).2

/-- The point computed when the discriminant is taken for zero. -/
theorem sphere_touch (l c d : Vec (Fl F) 3) (r : Fl F) (hp : 11 ≤ F.prec) (ht : F.tiny ≤ F.unit * F.unit) {L R η τ : ℝ}
    (hL : L = Spec.norm (fun i => (d i).1)) (hη : |L - 1| ≤ η) (hη1 : η ≤ 1 / 32) (hr : 0 < r.1)
    (hR : R = Spec.dist (fun i => (l i).1) (fun i => (c i).1) + r.1) (t1 : F.tiny ≤ F.unit ^ 2 * L ^ 2) (t2 : F.tiny ≤ F.unit ^ 2 * (L * r.1))
    (t3 : F.tiny ≤ F.unit ^ 2 * r.1 ^ 2) (t6 : F.tiny ≤ F.unit ^ 2 * r.1) {D δ : ℝ} {fa fb : Fl F} (ha : fa = dot d d)
    (hb : fb = 2 * dot d (vsub l c)) (hδ : Spec.IsDistance {fun i => (c i).1} (Spec.line (fun i => (l i).1) (fun i => (d i).1)) δ)
    (hD : |D - 4 * L ^ 2 * (r.1 ^ 2 - δ ^ 2)| ≤ 166 * (F.unit * (L * R) ^ 2)) (hDτ : |D| ≤ τ) :
    ∃ t : Fl F, t = -fb / 2 * fa ∧
      r.1 * |Spec.dist (Spec.pointAt (fun i => (l i).1) (fun i => (d i).1) t.1) (fun i => (c i).1) - r.1|
        ≤ 42 * (F.unit * R ^ 2) + ((9 / 2 * η + 24 * F.unit) * R) ^ 2 + 27 / 100 * τ ∧
      ∀ i, |(vadd l (vscale d t) i).1 - Spec.pointAt (fun i => (l i).1) (fun i => (d i).1) t.1 i|
          ≤ F.unit * |Spec.pointAt (fun i => (l i).1) (fun i => (d i).1) t.1 i| + 5 * (F.unit * R) := by
  have hu0 := F.unit_pos
  have ht0 := F.tiny_nonneg
  have hu1 := unit_le_2048 hp
  obtain ⟨L1, L2⟩ := abs_le.1 hη
  have hL0 : 0 < L := by linarith
  have hη0 : 0 ≤ η := (abs_nonneg _).trans hη
  obtain ⟨W, hW⟩ : ∃ W, W = Spec.dist (fun i => (l i).1) (fun i => (c i).1) := ⟨_, rfl⟩
  obtain ⟨B, hB⟩ : ∃ B, B = ∑ i, ((l i).1 - (c i).1) * (d i).1 := ⟨_, rfl⟩
  have hW0 : 0 ≤ W := by rw [hW]; exact norm_nonneg' _
  rw [← hW] at hR
  have hrR : r.1 ≤ R := by linarith
  have hR0 : 0 < R := by linarith
  have hu2 : 0 ≤ F.unit ^ 2 := by positivity
  have hLrR : L * r.1 ≤ L * R := mul_le_mul_of_nonneg_left hrR hL0.le
  have t2' := t2.trans (mul_le_mul_of_nonneg_left hLrR hu2)
  have t3' := t3.trans (mul_le_mul_of_nonneg_left (pow_le_pow_left₀ hr.le hrR 2) hu2)
  have t6' := t6.trans (mul_le_mul_of_nonneg_left hrR hu2)
  obtain ⟨k1, k2, k3, -, -⟩ := sphere_coeffs l c d (fun i => (d i).1) (fun i => by rw [sub_self, abs_zero]; positivity) r hp ht hL hW hr.le hR t1 t2' t3'
  rw [← ha] at k1
  rw [← hB] at k2 k3
  have hq := Fl.half_neg_double fb (dot d (vsub l c)) (by rw [hb, Fl.double_exact])
  set q := (dot d (vsub l c)).1 with hqd
  set u := F.unit with hu
  have hX : 0 ≤ u * R := by positivity
  have huX : u * (u * R) ≤ 1 / 2048 * (u * R) := mul_le_mul_of_nonneg_right hu1 hX
  have huR : u * R ≤ 1 / 2048 * R := mul_le_mul_of_nonneg_right hu1 hR0.le
  have hL2 : L ^ 2 ≤ 1064 / 1000 := by
    have := pow_le_pow_left₀ hL0.le (by linarith : L ≤ 33 / 32) 2
    norm_num at this ⊢; linarith
  have hL2' : 938 / 1000 ≤ L ^ 2 := by
    have := pow_le_pow_left₀ (by norm_num) (by linarith : 31 / 32 ≤ L) 2
    norm_num at this ⊢; linarith
  have hLR : L * R ≤ 33 / 32 * R := mul_le_mul_of_nonneg_right (by linarith) hR0.le
  have huLR : u * (L * R) ≤ 33 / 32 * (u * R) := by
    have := mul_le_mul_of_nonneg_left hLR hu0.le
    linarith
  have huA : u * L ^ 2 ≤ 1064 / 1000 * u := by
    have := mul_le_mul_of_nonneg_left hL2 hu0.le
    linarith
  -- a and q
  have a1 : |fa.1 - L ^ 2| ≤ 96 / 10 * u := by linarith
  have a2 : |fa.1| ≤ 107 / 100 := by
    have := abs_le_of_close a1 (le_of_eq (abs_of_pos (by positivity : 0 < L ^ 2)))
    linarith
  have q1 : |q - B| ≤ 9302 / 1000 * (u * R) := by linarith
  have B1 : |B| ≤ 33 / 32 * R := by linarith
  have q2 : |q| ≤ 1037 / 1000 * R := by
    have := abs_le_of_close q1 B1
    linarith
  have m1 : |q * fa.1 - B * L ^ 2| ≤ 1996 / 100 * (u * R) := by
    have e : q * fa.1 - B * L ^ 2 = (q - B) * fa.1 + B * (fa.1 - L ^ 2) := by ring
    rw [e]
    refine (abs_add_le _ _).trans ?_
    rw [abs_mul, abs_mul B]
    have n1 := mul_le_mul q1 a2 (abs_nonneg _) (by positivity)
    have n2 := mul_le_mul B1 a1 (abs_nonneg _) (by positivity)
    have e2 : 33 / 32 * R * (96 / 10 * u) = 33 / 32 * (96 / 10) * (u * R) := by ring
    rw [e2] at n2
    linarith
  have m2 : |q * fa.1| ≤ 112 / 100 * R := by
    rw [abs_mul]
    have := mul_le_mul q2 a2 (abs_nonneg _) (by positivity)
    linarith
  refine ⟨-fb / 2 * fa, rfl, ?_⟩
  set t := -fb / 2 * fa with htd
  have t7 : |t.1 - -(q * fa.1)| ≤ 113 / 100 * (u * R) := by
    have h := F.err ((-fb / 2).1 * fa.1)
    rw [hq, neg_mul, abs_neg] at h
    have h2 : t.1 = F.rnd (-(q * fa.1)) := by rw [htd, Fl.val_mul, hq, neg_mul]
    rw [h2]
    have := mul_le_mul_of_nonneg_left m2 hu0.le
    have e : u ^ 2 * R = u * (u * R) := by ring
    linarith
  have t8 : |t.1 + B * L ^ 2| ≤ 211 / 10 * (u * R) := by
    have e : t.1 + B * L ^ 2 = (t.1 - -(q * fa.1)) + -(q * fa.1 - B * L ^ 2) := by ring
    rw [e]
    refine (abs_add_le _ _).trans ?_
    rw [abs_neg]
    linarith
  have t9 : |t.1| ≤ 113 / 100 * R := by
    have := abs_le_of_close t7 ((abs_neg _).trans_le m2)
    linarith
  have t10 : L * |t.1| ≤ 205 / 100 * R := by
    have := mul_le_mul (by linarith : L ≤ 33 / 32) t9 (abs_nonneg _) (by norm_num)
    linarith
  refine ⟨?_, fun i => hit_point l d (fun i => (d i).1) (fun i => by rw [sub_self, abs_zero]; positivity) t hu1 hL hR0.le t10 t6' i⟩
  -- the residual
  have hrej := norm_rejection (fun i => (l i).1 - (c i).1) (fun i => (d i).1) (by rw [← hL]; exact hL0)
  have hdist := line_distance (fun i => (c i).1) (fun i => (l i).1) (fun i => (d i).1) (by rw [← hL]; exact hL0)
  rw [← hB, ← hL] at hdist hrej
  rw [← IsLeast.unique hδ hdist] at hrej
  have hWn : Spec.norm (fun i => (l i).1 - (c i).1) = W := hW.symm
  rw [hWn] at hrej
  have g1 : |L ^ 2 * t.1 + B| ≤ L * ((9 / 2 * η + 24 * u) * R) := by
    have e : L ^ 2 * t.1 + B = L ^ 2 * (t.1 + B * L ^ 2) + B * ((1 - L) * ((1 + L) * (1 + L ^ 2))) := by ring
    rw [e]
    refine (abs_add_le _ _).trans ?_
    rw [abs_mul, abs_mul, abs_mul, abs_sub_comm 1 L, abs_of_pos (by positivity : 0 < L ^ 2), abs_of_pos (by positivity : 0 < (1 + L) * (1 + L ^ 2))]
    have n1 : L ^ 2 * |t.1 + B * L ^ 2| ≤ L * (24 * (u * R)) := by
      have h1 := mul_le_mul_of_nonneg_left t8 (sq_nonneg L)
      have h2 : L ^ 2 * (211 / 10 * (u * R)) = L * (L * (211 / 10 * (u * R))) := by ring
      rw [h2] at h1
      refine h1.trans (mul_le_mul_of_nonneg_left ?_ hL0.le)
      have := mul_le_mul_of_nonneg_right (by linarith : L ≤ 33 / 32) (by positivity : 0 ≤ 211 / 10 * (u * R))
      linarith
    have n2 : (1 + L) * (1 + L ^ 2) ≤ 42 / 10 := by
      have := mul_le_mul (by linarith : 1 + L ≤ 65 / 32) (by linarith : 1 + L ^ 2 ≤ 2064 / 1000) (by positivity) (by norm_num)
      linarith
    have n3 : |B| * (|L - 1| * ((1 + L) * (1 + L ^ 2))) ≤ L * R * (η * (42 / 10)) :=
      mul_le_mul k3 (mul_le_mul hη n2 (by positivity) hη0) (by positivity) (by positivity)
    have n4 : 0 ≤ L * (R * η) := by positivity
    have e2 : L * ((9 / 2 * η + 24 * u) * R) = 9 / 2 * (L * (R * η)) + L * (24 * (u * R)) := by ring
    have e3 : L * R * (η * (42 / 10)) = 42 / 10 * (L * (R * η)) := by ring
    rw [e2]; rw [e3] at n3
    linarith
  have hp0 : 0 ≤ Spec.dist (Spec.pointAt (fun i => (l i).1) (fun i => (d i).1) t.1) (fun i => (c i).1) := Real.sqrt_nonneg _
  have hres := sphere_residual (fun i => (l i).1) (fun i => (c i).1) (fun i => (d i).1) t.1
  rw [← hL, ← hW, ← hB] at hres
  set P := Spec.dist (Spec.pointAt (fun i => (l i).1) (fun i => (d i).1) t.1) (fun i => (c i).1) with hP
  have hkey : L ^ 2 * (P ^ 2 - r.1 ^ 2) = (L ^ 2 * t.1 + B) ^ 2 - L ^ 2 * (r.1 ^ 2 - δ ^ 2) := by
    rw [hres, ← hrej]; field_simp; ring
  have g2 : (L ^ 2 * t.1 + B) ^ 2 ≤ L ^ 2 * ((9 / 2 * η + 24 * u) * R) ^ 2 := by
    rw [← mul_pow, ← sq_abs (L ^ 2 * t.1 + B)]
    exact pow_le_pow_left₀ (abs_nonneg _) g1 2
  have g3 : |L ^ 2 * (r.1 ^ 2 - δ ^ 2)| ≤ L ^ 2 * (42 * (u * R ^ 2) + 27 / 100 * τ) := by
    have h1 : |4 * L ^ 2 * (r.1 ^ 2 - δ ^ 2)| ≤ τ + 166 * (u * (L * R) ^ 2) := by
      rw [abs_sub_comm] at hD
      exact abs_le_of_close hD hDτ
    have h2 : |4 * L ^ 2 * (r.1 ^ 2 - δ ^ 2)| = 4 * |L ^ 2 * (r.1 ^ 2 - δ ^ 2)| := by
      rw [mul_assoc, abs_mul]; norm_num
    have hτ0 : 0 ≤ τ := (abs_nonneg _).trans hDτ
    have h3 := mul_le_mul_of_nonneg_right hL2' hτ0
    have h4 : u * (L * R) ^ 2 = L ^ 2 * (u * R ^ 2) := by ring
    have h5 : 0 ≤ L ^ 2 * (u * R ^ 2) := by positivity
    rw [h4] at h1
    linarith
  have g4 : |P ^ 2 - r.1 ^ 2| ≤ 42 * (u * R ^ 2) + ((9 / 2 * η + 24 * u) * R) ^ 2 + 27 / 100 * τ := by
    have h1 : L ^ 2 * |P ^ 2 - r.1 ^ 2| ≤ L ^ 2 * (42 * (u * R ^ 2) + ((9 / 2 * η + 24 * u) * R) ^ 2 + 27 / 100 * τ) := by
      have h2 : L ^ 2 * |P ^ 2 - r.1 ^ 2| = |L ^ 2 * (P ^ 2 - r.1 ^ 2)| := by
        rw [abs_mul, abs_of_pos (by positivity : 0 < L ^ 2)]
      rw [h2, hkey]
      refine (abs_sub _ _).trans ?_
      rw [abs_of_nonneg (sq_nonneg (L ^ 2 * t.1 + B))]
      linarith
    exact le_of_mul_le_mul_left h1 (by positivity)
  refine le_trans ?_ g4
  rw [sq_sub_sq, abs_mul, abs_of_nonneg (by linarith : 0 ≤ P + r.1)]
  exact mul_le_mul_of_nonneg_right (by linarith) (abs_nonneg _)

/-- What the size of the smallest numbers is needed for. -/
theorem unit_small {L r : ℝ} (hL : |L - 1| ≤ 1 / 32) (hr : 0 < r)
    (hsm : ∀ k, F.emin = some k → 2 * (2 : ℝ) ^ k ≤ F.unit ^ 2 ∧ 2 * (2 : ℝ) ^ k ≤ F.unit ^ 2 * r ^ 2) :
    F.tiny ≤ F.unit * F.unit ∧ F.tiny ≤ F.unit ^ 2 * L ^ 2 ∧ F.tiny ≤ F.unit ^ 2 * (L * r) ∧ F.tiny ≤ F.unit ^ 2 * r ^ 2 ∧
      F.tiny ≤ F.unit ^ 2 * (L * r) ^ 2 ∧ L * F.tiny ≤ F.unit ^ 2 * r ∧ F.tiny ≤ F.unit ^ 2 * r := by
  obtain ⟨L1, L2⟩ := abs_le.1 hL
  have hu2 : 0 ≤ F.unit ^ 2 := by positivity
  have ht0 := F.tiny_nonneg
  have h1 : 2 * F.tiny ≤ F.unit ^ 2 := by
    have := tiny_le_of (F := F) (x := F.unit ^ 2 / 2) (by positivity) fun k hk => by have := (hsm k hk).1; linarith
    linarith
  have h2 : 2 * F.tiny ≤ F.unit ^ 2 * r ^ 2 := by
    have := tiny_le_of (F := F) (x := F.unit ^ 2 * r ^ 2 / 2) (by positivity) fun k hk => by have := (hsm k hk).2; linarith
    linarith
  have h3 : 2 * F.tiny ≤ F.unit ^ 2 * r := by
    rcases le_total r 1 with h | h
    · refine h2.trans (mul_le_mul_of_nonneg_left ?_ hu2)
      have := mul_le_mul_of_nonneg_left h hr.le
      rw [sq]; linarith
    · have := mul_le_mul_of_nonneg_left h hu2
      linarith
  have hL2 : 1 / 2 ≤ L ^ 2 := by
    have := pow_le_pow_left₀ (by norm_num) (by linarith : 31 / 32 ≤ L) 2
    norm_num at this ⊢; linarith
  refine ⟨?_, ?_, ?_, by linarith, ?_, ?_, by linarith⟩
  · rw [← sq]; linarith
  · have := mul_le_mul_of_nonneg_left hL2 hu2
    linarith
  · have := mul_le_mul_of_nonneg_left (mul_le_mul_of_nonneg_right (by linarith : 1 / 2 ≤ L) hr.le) hu2
    linarith
  · have := mul_le_mul_of_nonneg_left (mul_le_mul_of_nonneg_right hL2 (sq_nonneg r)) hu2
    rw [mul_pow]; linarith
  · have := mul_le_mul_of_nonneg_right (by linarith : L ≤ 2) ht0
    linarith

/-- When the discriminant is clear of the tolerance. -/
theorem disc_clear {L R r δ D τ u : ℝ} (hL : |L - 1| ≤ 1 / 32) (hu : 0 ≤ u) (hD : |D - 4 * L ^ 2 * (r ^ 2 - δ ^ 2)| ≤ 166 * (u * (L * R) ^ 2)) (hτ : 0 ≤ τ) :
    (τ + 177 * (u * R ^ 2) < 15 / 4 * (r ^ 2 - δ ^ 2) → τ < D) ∧ (τ + 177 * (u * R ^ 2) < 15 / 4 * (δ ^ 2 - r ^ 2) → D < -τ) := by
  obtain ⟨L1, L2⟩ := abs_le.1 hL
  obtain ⟨D1, D2⟩ := abs_le.1 hD
  have hL2 : L ^ 2 ≤ 1064 / 1000 := by
    have := pow_le_pow_left₀ (by linarith) (by linarith : L ≤ 33 / 32) 2
    norm_num at this ⊢; linarith
  have hL2' : 938 / 1000 ≤ L ^ 2 := by
    have := pow_le_pow_left₀ (by norm_num) (by linarith : 31 / 32 ≤ L) 2
    norm_num at this ⊢; linarith
  have hX : 0 ≤ u * R ^ 2 := by positivity
  have e : u * (L * R) ^ 2 = L ^ 2 * (u * R ^ 2) := by ring
  rw [e] at D1 D2
  have h1 := mul_le_mul_of_nonneg_right hL2 hX
  constructor
  · intro h
    have h2 : 0 ≤ r ^ 2 - δ ^ 2 := by linarith
    have h3 := mul_le_mul_of_nonneg_right hL2' h2
    linarith
  · intro h
    have h2 : 0 ≤ δ ^ 2 - r ^ 2 := by linarith
    have h3 := mul_le_mul_of_nonneg_right hL2' h2
    linarith

variable [Tol (Fl F)]

/-- **C107** Sphere and line. `R` is the distance from the stored origin of the line to the centre plus the radius, `η` how far the stored
direction is from unit length, `τ` the tolerance. Two points reported: each is a rounded point of the line whose distance from the centre is right
up to `110 · 2^-prec R² / r`. One point reported: the same up to `42 · 2^-prec R² / r`, plus `(9η/2 + 24 · 2^-prec)² R² / r` because the
parameter is multiplied by `a` where it should be divided, plus the tolerance. If the line comes clearly nearer to the centre than the radius,
both points are reported, the one further along the direction first, each close to the exact point of intersection: the error grows with the reciprocal of half the chord. If it
clearly stays further away, none is. -/
theorem C107_line (s : Sphere (Fl F)) (ln : Line (Fl F) 3) (e : Fl F) (hp : 11 ≤ F.prec) {R η τ : ℝ} (hr : 0 < s.radius.1)
    (hsm : ∀ k, F.emin = some k → 2 * (2 : ℝ) ^ k ≤ ((2 : ℝ)⁻¹ ^ F.prec) ^ 2 ∧ 2 * (2 : ℝ) ^ k ≤ ((2 : ℝ)⁻¹ ^ F.prec) ^ 2 * s.radius.1 ^ 2)
    (hη : |Spec.norm (fun i => (ln.direction i).1) - 1| ≤ η) (hη1 : η ≤ 1 / 32)
    (hR : R = Spec.dist (fun i => (ln.origin i).1) (fun i => (s.origin i).1) + s.radius.1) (hτ : 0 ≤ τ)
    (hg : ∀ x : Fl F, Tol.isGreater x 0 e = true → 0 ≤ x.1) (hg' : ∀ x : Fl F, τ < x.1 → Tol.isGreater x 0 e = true)
    (hz : ∀ x : Fl F, Tol.isZero x e = true → |x.1| ≤ τ) :
    (∀ p q, intersectSphereLine s ln e = ⟨some p, some q⟩ → ∀ y, (y = p ∨ y = q) →
      ∃ x ∈ Spec.line (fun i => (ln.origin i).1) (fun i => (ln.direction i).1),
        s.radius.1 * |Spec.dist x (fun i => (s.origin i).1) - s.radius.1| ≤ 110 * ((2 : ℝ)⁻¹ ^ F.prec * R ^ 2) ∧
        ∀ i, |(y i).1 - x i| ≤ (2 : ℝ)⁻¹ ^ F.prec * |x i| + 5 * ((2 : ℝ)⁻¹ ^ F.prec * R)) ∧
    (∀ p, intersectSphereLine s ln e = ⟨some p, none⟩ →
      ∃ x ∈ Spec.line (fun i => (ln.origin i).1) (fun i => (ln.direction i).1),
        s.radius.1 * |Spec.dist x (fun i => (s.origin i).1) - s.radius.1|
          ≤ 42 * ((2 : ℝ)⁻¹ ^ F.prec * R ^ 2) + ((9 / 2 * η + 24 * (2 : ℝ)⁻¹ ^ F.prec) * R) ^ 2 + 27 / 100 * τ ∧
        ∀ i, |(p i).1 - x i| ≤ (2 : ℝ)⁻¹ ^ F.prec * |x i| + 5 * ((2 : ℝ)⁻¹ ^ F.prec * R)) ∧
    ∃ δ, Spec.IsDistance {fun i => (s.origin i).1} (Spec.line (fun i => (ln.origin i).1) (fun i => (ln.direction i).1)) δ ∧
      (τ + 177 * ((2 : ℝ)⁻¹ ^ F.prec * R ^ 2) < 15 / 4 * (s.radius.1 ^ 2 - δ ^ 2) →
        ∃ p q s₁ s₂, intersectSphereLine s ln e = ⟨some p, some q⟩ ∧ s₂ < s₁ ∧
          Spec.sphere (fun i => (s.origin i).1) s.radius.1 ∩ Spec.line (fun i => (ln.origin i).1) (fun i => (ln.direction i).1)
            = {Spec.pointAt (fun i => (ln.origin i).1) (fun i => (ln.direction i).1) s₁, Spec.pointAt (fun i => (ln.origin i).1) (fun i => (ln.direction i).1) s₂} ∧
          ∀ y t, (y = p ∧ t = s₁ ∨ y = q ∧ t = s₂) → ∀ i, |(y i).1 - Spec.pointAt (fun i => (ln.origin i).1) (fun i => (ln.direction i).1) t i|
            ≤ (2 : ℝ)⁻¹ ^ F.prec * |Spec.pointAt (fun i => (ln.origin i).1) (fun i => (ln.direction i).1) t i|
              + 81 * ((2 : ℝ)⁻¹ ^ F.prec * (R ^ 2 / Real.sqrt (s.radius.1 ^ 2 - δ ^ 2)))) ∧
      (τ + 177 * ((2 : ℝ)⁻¹ ^ F.prec * R ^ 2) < 15 / 4 * (δ ^ 2 - s.radius.1 ^ 2) → intersectSphereLine s ln e = ⟨none, none⟩) := by
  have hu0 := F.unit_pos
  set L := Spec.norm (fun i => (ln.direction i).1) with hL
  have hη2 : |L - 1| ≤ 1 / 32 := hη.trans hη1
  obtain ⟨L1, L2⟩ := abs_le.1 hη2
  obtain ⟨ht, t1, t2, t3, t4, t5, t6⟩ := unit_small hη2 hr hsm
  obtain ⟨a, ha⟩ : ∃ a, a = dot ln.direction ln.direction := ⟨_, rfl⟩
  obtain ⟨b, hb⟩ : ∃ b, b = 2 * dot ln.direction (vsub ln.origin s.origin) := ⟨_, rfl⟩
  obtain ⟨c, hc⟩ : ∃ c, c = dot (vsub ln.origin s.origin) (vsub ln.origin s.origin) - s.radius * s.radius := ⟨_, rfl⟩
  obtain ⟨D, hD⟩ : ∃ D, D = b * b - 4 * a * c := ⟨_, rfl⟩
  have hres : intersectSphereLine s ln e =
      if Tol.isGreater D 0 e then
        ⟨some (vadd ln.origin (vscale ln.direction ((-b + HasSqrt.sqrt D) / (2 * a)))),
          some (vadd ln.origin (vscale ln.direction ((-b - HasSqrt.sqrt D) / (2 * a))))⟩
      else if Tol.isZero D e then ⟨some (vadd ln.origin (vscale ln.direction (-b / 2 * a))), none⟩ else ⟨none, none⟩ := by
    subst hD hc hb ha; rfl
  obtain ⟨δ, h1, h2, h3, h4⟩ := sphere_hit ln.origin s.origin ln.direction (fun i => (ln.direction i).1)
    (fun i => by rw [sub_self, abs_zero]; positivity) s.radius hp ht hL (by linarith) hr hR t1 t2 t3 t4 t5 ha hb hc hD
  obtain ⟨c1, c2⟩ := disc_clear hη2 hu0.le h2 hτ
  refine ⟨?_, ?_, δ, h1, ?_, ?_⟩
  · intro p q hpq y hy
    rw [hres] at hpq
    split at hpq
    · rename_i hgr
      rw [SphereIntersection.mk.injEq, Option.some.injEq, Option.some.injEq] at hpq
      rcases hy with rfl | rfl
      · obtain ⟨g1, g2⟩ := h3 (hg _ hgr) _ (.inl rfl)
        rw [← hpq.1]
        exact ⟨_, ⟨_, rfl⟩, g1, g2⟩
      · obtain ⟨g1, g2⟩ := h3 (hg _ hgr) _ (.inr rfl)
        rw [← hpq.2]
        exact ⟨_, ⟨_, rfl⟩, g1, g2⟩
    · split at hpq <;> simp at hpq
  · intro p hpp
    rw [hres] at hpp
    split at hpp
    · simp at hpp
    · split at hpp
      · rename_i hzz
        rw [SphereIntersection.mk.injEq, Option.some.injEq] at hpp
        obtain ⟨t, rfl, g1, g2⟩ := sphere_touch ln.origin s.origin ln.direction s.radius hp ht hL hη hη1 hr hR t1 t2 t3 t6 ha hb h1 h2 (hz _ hzz)
        rw [← hpp.1]
        exact ⟨_, ⟨_, rfl⟩, g1, g2⟩
      · simp at hpp
  · intro hcl
    have hDτ := c1 hcl
    have hδ0 : 0 ≤ δ := by obtain ⟨_, _, _, _, h⟩ := h1.1; rw [h]; exact Real.sqrt_nonneg _
    have hlt : δ < s.radius.1 := by
      by_contra hcon
      have := pow_le_pow_left₀ hr.le (not_lt.1 hcon) 2
      have hX : 0 ≤ (2 : ℝ)⁻¹ ^ F.prec * R ^ 2 := by positivity
      linarith
    obtain ⟨s₁, s₂, g1, g2, g3⟩ := h4 (by linarith) hlt
    refine ⟨_, _, s₁, s₂, by rw [hres, if_pos (hg' _ hDτ)], g1, g2, ?_⟩
    rintro y t (⟨rfl, rfl⟩ | ⟨rfl, rfl⟩)
    · exact (g3 _ _ (.inl ⟨rfl, rfl⟩)).2
    · exact (g3 _ _ (.inr ⟨rfl, rfl⟩)).2
  · intro hcl
    have hDτ := c2 hcl
    have n1 : Tol.isGreater D 0 e = false := by
      cases hgr : Tol.isGreater D 0 e
      · rfl
      · have := hg _ hgr; linarith
    have n2 : Tol.isZero D e = false := by
      cases hzz : Tol.isZero D e
      · rfl
      · have := (abs_le.1 (hz _ hzz)).1; linarith
    rw [hres, n1, n2]; rfl

/-- **C107** Sphere and ray. Every point reported is a rounded point of the ray (prolonged backwards by the tolerance `ρ`) whose distance from the
centre is right up to the bounds of `C107_line`. If the line carrying the ray clearly crosses the sphere, at the parameters `s₂ < s₁`, a point
reported first is close to the exact point at `s₁`, one reported second to that at `s₂`; each is reported when its parameter is positive by the
margin `78 · 2^-prec R² / h`, and not reported when it is below `-ρ` by the same margin. -/
theorem C107_ray (s : Sphere (Fl F)) (ry : Ray (Fl F) 3) (e : Fl F) (hp : 11 ≤ F.prec) {R η τ ρ : ℝ} (hr : 0 < s.radius.1)
    (hsm : ∀ k, F.emin = some k → 2 * (2 : ℝ) ^ k ≤ ((2 : ℝ)⁻¹ ^ F.prec) ^ 2 ∧ 2 * (2 : ℝ) ^ k ≤ ((2 : ℝ)⁻¹ ^ F.prec) ^ 2 * s.radius.1 ^ 2)
    (hη : |Spec.norm (fun i => (ry.direction i).1) - 1| ≤ η) (hη1 : η ≤ 1 / 32)
    (hR : R = Spec.dist (fun i => (ry.origin i).1) (fun i => (s.origin i).1) + s.radius.1) (hτ : 0 ≤ τ)
    (hg : ∀ x : Fl F, Tol.isGreater x 0 e = true → 0 ≤ x.1) (hg' : ∀ x : Fl F, τ < x.1 → Tol.isGreater x 0 e = true)
    (hz : ∀ x : Fl F, Tol.isZero x e = true → |x.1| ≤ τ)
    (hq : ∀ x : Fl F, Tol.isGreaterEq x 0 e = true → -ρ ≤ x.1) (hq' : ∀ x : Fl F, 0 ≤ x.1 → Tol.isGreaterEq x 0 e = true) :
    (∀ y, ((intersectSphereRay s ry e).first = some y ∨ (intersectSphereRay s ry e).second = some y) →
      ∃ x ∈ Spec.rayUpTo ρ (fun i => (ry.origin i).1) (fun i => (ry.direction i).1),
        s.radius.1 * |Spec.dist x (fun i => (s.origin i).1) - s.radius.1|
          ≤ 110 * ((2 : ℝ)⁻¹ ^ F.prec * R ^ 2) + ((9 / 2 * η + 24 * (2 : ℝ)⁻¹ ^ F.prec) * R) ^ 2 + 27 / 100 * τ ∧
        ∀ i, |(y i).1 - x i| ≤ (2 : ℝ)⁻¹ ^ F.prec * |x i| + 5 * ((2 : ℝ)⁻¹ ^ F.prec * R)) ∧
    ∃ δ, Spec.IsDistance {fun i => (s.origin i).1} (Spec.line (fun i => (ry.origin i).1) (fun i => (ry.direction i).1)) δ ∧
      (τ + 177 * ((2 : ℝ)⁻¹ ^ F.prec * R ^ 2) < 15 / 4 * (s.radius.1 ^ 2 - δ ^ 2) →
        ∃ s₁ s₂, s₂ < s₁ ∧
          Spec.sphere (fun i => (s.origin i).1) s.radius.1 ∩ Spec.line (fun i => (ry.origin i).1) (fun i => (ry.direction i).1)
            = {Spec.pointAt (fun i => (ry.origin i).1) (fun i => (ry.direction i).1) s₁,
              Spec.pointAt (fun i => (ry.origin i).1) (fun i => (ry.direction i).1) s₂} ∧
          ∀ o t, (o = (intersectSphereRay s ry e).first ∧ t = s₁ ∨ o = (intersectSphereRay s ry e).second ∧ t = s₂) →
            (∀ y, o = some y → ∀ i, |(y i).1 - Spec.pointAt (fun i => (ry.origin i).1) (fun i => (ry.direction i).1) t i|
              ≤ (2 : ℝ)⁻¹ ^ F.prec * |Spec.pointAt (fun i => (ry.origin i).1) (fun i => (ry.direction i).1) t i|
                + 81 * ((2 : ℝ)⁻¹ ^ F.prec * (R ^ 2 / Real.sqrt (s.radius.1 ^ 2 - δ ^ 2)))) ∧
            (78 * ((2 : ℝ)⁻¹ ^ F.prec * (R ^ 2 / Real.sqrt (s.radius.1 ^ 2 - δ ^ 2))) ≤ t → o.isSome) ∧
            (t + 78 * ((2 : ℝ)⁻¹ ^ F.prec * (R ^ 2 / Real.sqrt (s.radius.1 ^ 2 - δ ^ 2))) < -ρ → o = none)) ∧
      (τ + 177 * ((2 : ℝ)⁻¹ ^ F.prec * R ^ 2) < 15 / 4 * (δ ^ 2 - s.radius.1 ^ 2) → intersectSphereRay s ry e = ⟨none, none⟩) := by
  have hu0 := F.unit_pos
  set L := Spec.norm (fun i => (ry.direction i).1) with hL
  have hη2 : |L - 1| ≤ 1 / 32 := hη.trans hη1
  have hη0 : 0 ≤ η := (abs_nonneg _).trans hη
  obtain ⟨L1, L2⟩ := abs_le.1 hη2
  obtain ⟨ht, t1, t2, t3, t4, t5, t6⟩ := unit_small hη2 hr hsm
  obtain ⟨a, ha⟩ : ∃ a, a = dot ry.direction ry.direction := ⟨_, rfl⟩
  obtain ⟨b, hb⟩ : ∃ b, b = 2 * dot ry.direction (vsub ry.origin s.origin) := ⟨_, rfl⟩
  obtain ⟨c, hc⟩ : ∃ c, c = dot (vsub ry.origin s.origin) (vsub ry.origin s.origin) - s.radius * s.radius := ⟨_, rfl⟩
  obtain ⟨D, hD⟩ : ∃ D, D = b * b - 4 * a * c := ⟨_, rfl⟩
  have hres : intersectSphereRay s ry e =
      if Tol.isGreater D 0 e then
        ⟨if Tol.isGreaterEq ((-b + HasSqrt.sqrt D) / (2 * a)) 0 e then
            some (vadd ry.origin (vscale ry.direction ((-b + HasSqrt.sqrt D) / (2 * a)))) else none,
          if Tol.isGreaterEq ((-b - HasSqrt.sqrt D) / (2 * a)) 0 e then
            some (vadd ry.origin (vscale ry.direction ((-b - HasSqrt.sqrt D) / (2 * a)))) else none⟩
      else if Tol.isZero D e then
        if Tol.isGreaterEq (-b / 2 * a) 0 e then ⟨some (vadd ry.origin (vscale ry.direction (-b / 2 * a))), none⟩ else ⟨none, none⟩
      else ⟨none, none⟩ := by
    subst hD hc hb ha; rfl
  obtain ⟨δ, h1, h2, h3, h4⟩ := sphere_hit ry.origin s.origin ry.direction (fun i => (ry.direction i).1)
    (fun i => by rw [sub_self, abs_zero]; positivity) s.radius hp ht hL (by linarith) hr hR t1 t2 t3 t4 t5 ha hb hc hD
  obtain ⟨c1, c2⟩ := disc_clear hη2 hu0.le h2 hτ
  have hsq : 0 ≤ ((9 / 2 * η + 24 * (2 : ℝ)⁻¹ ^ F.prec) * R) ^ 2 := sq_nonneg _
  refine ⟨?_, δ, h1, ?_, ?_⟩
  · have cross : ∀ t y, Tol.isGreater D 0 e = true → (t = (-b + HasSqrt.sqrt D) / (2 * a) ∨ t = (-b - HasSqrt.sqrt D) / (2 * a)) →
        (if Tol.isGreaterEq t 0 e then some (vadd ry.origin (vscale ry.direction t)) else none) = some y →
        ∃ x ∈ Spec.rayUpTo ρ (fun i => (ry.origin i).1) (fun i => (ry.direction i).1),
          s.radius.1 * |Spec.dist x (fun i => (s.origin i).1) - s.radius.1|
            ≤ 110 * ((2 : ℝ)⁻¹ ^ F.prec * R ^ 2) + ((9 / 2 * η + 24 * (2 : ℝ)⁻¹ ^ F.prec) * R) ^ 2 + 27 / 100 * τ ∧
          ∀ i, |(y i).1 - x i| ≤ (2 : ℝ)⁻¹ ^ F.prec * |x i| + 5 * ((2 : ℝ)⁻¹ ^ F.prec * R) := by
      intro t y hgr htt hy
      obtain ⟨g1, g2⟩ := h3 (hg _ hgr) t htt
      split at hy
      · rename_i hge
        rw [Option.some.injEq] at hy
        rw [← hy]
        refine ⟨_, ⟨t.1, hq _ hge, rfl⟩, g1.trans ?_, g2⟩
        show 110 * ((2 : ℝ)⁻¹ ^ F.prec * R ^ 2) ≤ _
        linarith
      · simp at hy
    intro y hy
    rw [hres] at hy
    cases hgr : Tol.isGreater D 0 e
    · rw [hgr] at hy
      simp only [Bool.false_eq_true, if_false] at hy
      split at hy
      · rename_i hzz
        split at hy
        · rename_i hge
          obtain ⟨t, rfl, g1, g2⟩ := sphere_touch ry.origin s.origin ry.direction s.radius hp ht hL hη hη1 hr hR t1 t2 t3 t6 ha hb h1 h2 (hz _ hzz)
          simp only [Option.some.injEq, reduceCtorEq, or_false] at hy
          rw [← hy]
          refine ⟨_, ⟨_, hq _ hge, rfl⟩, g1.trans ?_, g2⟩
          have : 0 ≤ (2 : ℝ)⁻¹ ^ F.prec * R ^ 2 := by positivity
          show 42 * ((2 : ℝ)⁻¹ ^ F.prec * R ^ 2) + ((9 / 2 * η + 24 * (2 : ℝ)⁻¹ ^ F.prec) * R) ^ 2 + 27 / 100 * τ ≤ _
          linarith
        · simp at hy
      · simp at hy
    · rw [hgr] at hy
      simp only [if_true] at hy
      rcases hy with hy | hy
      · exact cross _ y hgr (.inl rfl) hy
      · exact cross _ y hgr (.inr rfl) hy
  · intro hcl
    have hDτ := c1 hcl
    have hδ0 : 0 ≤ δ := by obtain ⟨_, _, _, _, h⟩ := h1.1; rw [h]; exact Real.sqrt_nonneg _
    have hlt : δ < s.radius.1 := by
      by_contra hcon
      have := pow_le_pow_left₀ hr.le (not_lt.1 hcon) 2
      have hX : 0 ≤ (2 : ℝ)⁻¹ ^ F.prec * R ^ 2 := by positivity
      linarith
    obtain ⟨s₁, s₂, g1, g2, g3⟩ := h4 (by linarith) hlt
    refine ⟨s₁, s₂, g1, g2, ?_⟩
    intro o t hot
    obtain ⟨t', ht', ho⟩ : ∃ t', (t = s₁ ∧ t' = (-b + HasSqrt.sqrt D) / (2 * a) ∨ t = s₂ ∧ t' = (-b - HasSqrt.sqrt D) / (2 * a)) ∧
        o = if Tol.isGreaterEq t' 0 e then some (vadd ry.origin (vscale ry.direction t')) else none := by
      rw [hres, if_pos (hg' _ hDτ)] at hot
      rcases hot with h | h
      · exact ⟨_, .inl ⟨h.2, rfl⟩, h.1⟩
      · exact ⟨_, .inr ⟨h.2, rfl⟩, h.1⟩
    obtain ⟨g4, g5⟩ := g3 t t' ht'
    change _ ≤ 75 * ((2 : ℝ)⁻¹ ^ F.prec * (R ^ 2 / Real.sqrt (s.radius.1 ^ 2 - δ ^ 2))) at g4
    have hE : 0 ≤ (2 : ℝ)⁻¹ ^ F.prec * (R ^ 2 / Real.sqrt (s.radius.1 ^ 2 - δ ^ 2)) := by positivity
    have g6 : |t'.1 - t| ≤ 78 * ((2 : ℝ)⁻¹ ^ F.prec * (R ^ 2 / Real.sqrt (s.radius.1 ^ 2 - δ ^ 2))) := by
      have := mul_le_mul_of_nonneg_right (by linarith : 31 / 32 ≤ L) (abs_nonneg (t'.1 - t))
      linarith
    obtain ⟨g7, g8⟩ := abs_le.1 g6
    refine ⟨?_, ?_, ?_⟩
    · intro y hy
      rw [ho] at hy
      split at hy
      · rw [Option.some.injEq] at hy
        rw [← hy]; exact g5
      · simp at hy
    · intro hm
      rw [ho, if_pos (hq' _ (by linarith))]; rfl
    · intro hm
      rw [ho, if_neg]
      intro hge
      have := hq _ hge
      linarith
  · intro hcl
    have hDτ := c2 hcl
    have n1 : Tol.isGreater D 0 e = false := by
      cases hgr : Tol.isGreater D 0 e
      · rfl
      · have := hg _ hgr; linarith
    have n2 : Tol.isZero D e = false := by
      cases hzz : Tol.isZero D e
      · rfl
      · have := (abs_le.1 (hz _ hzz)).1; linarith
    rw [hres, n1, n2]; rfl

/-- **C107** Sphere and segment of length `L`; `m` is at most 1, the length and the radius. If the line carrying the segment clearly crosses the
sphere, at the parameters `s₂ < s₁`, a point reported first is close to the exact point at `s₁`, one reported second to that at `s₂`; each is
reported when its parameter lies in `[0, 1]` by the margin `75 · 2^-prec R² / (h L)`, and not reported when it lies outside `[-ρ, 1 + ρ]` by the
same margin. If the line clearly misses the sphere, nothing is reported. -/
theorem C107_segment (s : Sphere (Fl F)) (g : Segment (Fl F) 3) (e : Fl F) (hp : 11 ≤ F.prec) {R L m τ ρ : ℝ} (hr : 0 < s.radius.1)
    (hL : L = Spec.dist (fun i => (g.target i).1) (fun i => (g.source i).1)) (hm0 : 0 < m) (hm1 : m ≤ 1) (hmL : m ≤ L) (hmr : m ≤ s.radius.1)
    (hsm : ∀ k, F.emin = some k → (2 : ℝ) ^ k ≤ ((2 : ℝ)⁻¹ ^ F.prec) ^ 2 * m ^ 4 ∧ L * (2 : ℝ) ^ k ≤ ((2 : ℝ)⁻¹ ^ F.prec) ^ 2 * s.radius.1)
    (hR : R = Spec.dist (fun i => (g.source i).1) (fun i => (s.origin i).1) + s.radius.1) (hτ : 0 ≤ τ)
    (hg : ∀ x : Fl F, Tol.isGreater x 0 e = true → 0 ≤ x.1) (hg' : ∀ x : Fl F, τ < x.1 → Tol.isGreater x 0 e = true)
    (hz : ∀ x : Fl F, Tol.isZero x e = true → |x.1| ≤ τ)
    (hq : ∀ x : Fl F, Tol.isGreaterEq x 0 e = true → -ρ ≤ x.1) (hq' : ∀ x : Fl F, 0 ≤ x.1 → Tol.isGreaterEq x 0 e = true)
    (hl : ∀ x : Fl F, Tol.isLessEq x 1 e = true → x.1 ≤ 1 + ρ) (hl' : ∀ x : Fl F, x.1 ≤ 1 → Tol.isLessEq x 1 e = true) :
    ∃ δ, Spec.IsDistance {fun i => (s.origin i).1} (Spec.line (fun i => (g.source i).1) (fun i => (g.target i).1 - (g.source i).1)) δ ∧
      (τ + 166 * ((2 : ℝ)⁻¹ ^ F.prec * (L * R) ^ 2) < 4 * L ^ 2 * (s.radius.1 ^ 2 - δ ^ 2) →
        ∃ s₁ s₂, s₂ < s₁ ∧
          Spec.sphere (fun i => (s.origin i).1) s.radius.1 ∩ Spec.line (fun i => (g.source i).1) (fun i => (g.target i).1 - (g.source i).1)
            = {Spec.pointAt (fun i => (g.source i).1) (fun i => (g.target i).1 - (g.source i).1) s₁,
              Spec.pointAt (fun i => (g.source i).1) (fun i => (g.target i).1 - (g.source i).1) s₂} ∧
          ∀ o t, (o = (intersectSphereSegment s g e).first ∧ t = s₁ ∨ o = (intersectSphereSegment s g e).second ∧ t = s₂) →
            (∀ y, o = some y → ∀ i, |(y i).1 - Spec.pointAt (fun i => (g.source i).1) (fun i => (g.target i).1 - (g.source i).1) t i|
              ≤ (2 : ℝ)⁻¹ ^ F.prec * |Spec.pointAt (fun i => (g.source i).1) (fun i => (g.target i).1 - (g.source i).1) t i|
                + 81 * ((2 : ℝ)⁻¹ ^ F.prec * (R ^ 2 / Real.sqrt (s.radius.1 ^ 2 - δ ^ 2)))) ∧
            (75 * ((2 : ℝ)⁻¹ ^ F.prec * (R ^ 2 / Real.sqrt (s.radius.1 ^ 2 - δ ^ 2))) / L ≤ t →
              t + 75 * ((2 : ℝ)⁻¹ ^ F.prec * (R ^ 2 / Real.sqrt (s.radius.1 ^ 2 - δ ^ 2))) / L ≤ 1 → o.isSome) ∧
            (t + 75 * ((2 : ℝ)⁻¹ ^ F.prec * (R ^ 2 / Real.sqrt (s.radius.1 ^ 2 - δ ^ 2))) / L < -ρ ∨
              1 + ρ + 75 * ((2 : ℝ)⁻¹ ^ F.prec * (R ^ 2 / Real.sqrt (s.radius.1 ^ 2 - δ ^ 2))) / L < t → o = none)) ∧
      (τ + 166 * ((2 : ℝ)⁻¹ ^ F.prec * (L * R) ^ 2) < 4 * L ^ 2 * (δ ^ 2 - s.radius.1 ^ 2) → intersectSphereSegment s g e = ⟨none, none⟩) := by
  have hu0 := F.unit_pos
  have hL0 : 0 < L := by linarith
  have hu2 : 0 ≤ F.unit ^ 2 := by positivity
  have hT : F.tiny ≤ F.unit ^ 2 * m ^ 4 := tiny_le_of (by positivity) fun k hk => (hsm k hk).1
  have hm2 : m ^ 2 ≤ 1 := pow_le_one₀ hm0.le hm1
  have hm42 : m ^ 4 ≤ m ^ 2 := by
    have := mul_le_mul_of_nonneg_left hm2 (sq_nonneg m)
    have e : m ^ 4 = m ^ 2 * m ^ 2 := by ring
    rw [e]; linarith
  have t5 : L * F.tiny ≤ F.unit ^ 2 * s.radius.1 := by
    have := tiny_le_of (F := F) (x := F.unit ^ 2 * s.radius.1 / L) (by positivity) fun k hk => by
      rw [le_div_iff₀ hL0, mul_comm]; exact (hsm k hk).2
    rw [le_div_iff₀ hL0] at this
    linarith
  have up : ∀ {x : ℝ}, m ^ 4 ≤ x → F.tiny ≤ F.unit ^ 2 * x := fun h => hT.trans (mul_le_mul_of_nonneg_left h hu2)
  have mLr : m ^ 2 ≤ L * s.radius.1 := by rw [sq]; exact mul_le_mul hmL hmr hm0.le hL0.le
  obtain ⟨a, ha⟩ : ∃ a, a = dot (vsub g.target g.source) (vsub g.target g.source) := ⟨_, rfl⟩
  obtain ⟨b, hb⟩ : ∃ b, b = 2 * dot (vsub g.target g.source) (vsub g.source s.origin) := ⟨_, rfl⟩
  obtain ⟨c, hc⟩ : ∃ c, c = dot (vsub g.source s.origin) (vsub g.source s.origin) - s.radius * s.radius := ⟨_, rfl⟩
  obtain ⟨D, hD⟩ : ∃ D, D = b * b - 4 * a * c := ⟨_, rfl⟩
  obtain ⟨o1, ho1⟩ : ∃ o1 : Option (Vec (Fl F) 3), o1 = if Tol.isGreaterEq ((-b + HasSqrt.sqrt D) / (2 * a)) 0 e && Tol.isLessEq ((-b + HasSqrt.sqrt D) / (2 * a)) 1 e then
            some (vadd g.source (vscale (vsub g.target g.source) ((-b + HasSqrt.sqrt D) / (2 * a)))) else none := ⟨_, rfl⟩
  obtain ⟨o2, ho2⟩ : ∃ o2 : Option (Vec (Fl F) 3), o2 = if Tol.isGreaterEq ((-b - HasSqrt.sqrt D) / (2 * a)) 0 e && Tol.isLessEq ((-b - HasSqrt.sqrt D) / (2 * a)) 1 e then
            some (vadd g.source (vscale (vsub g.target g.source) ((-b - HasSqrt.sqrt D) / (2 * a)))) else none := ⟨_, rfl⟩
  have hres : intersectSphereSegment s g e =
      if Tol.isGreater D 0 e then if !o1.isSome && !o2.isSome then ⟨none, none⟩ else ⟨o1, o2⟩
      else if Tol.isZero D e then
        if Tol.isGreaterEq (-b / 2 * a) 0 e && Tol.isLessEq (-b / 2 * a) 1 e then
          ⟨some (vadd g.source (vscale (vsub g.target g.source) (-b / 2 * a))), none⟩ else ⟨none, none⟩
      else ⟨none, none⟩ := by
    subst ho1 ho2 hD hc hb ha; rfl
  obtain ⟨δ, h1, h2, -, h4⟩ := sphere_hit g.source s.origin (vsub g.target g.source) (fun i => (g.target i).1 - (g.source i).1)
    (fun i => Fl.sub_rel _ _) s.radius hp (by have := up (x := 1) (hm42.trans hm2); rw [← sq]; linarith) (L := L) hL hL0 hr hR
    (up (hm42.trans (pow_le_pow_left₀ hm0.le hmL 2))) (up (hm42.trans mLr)) (up (hm42.trans (pow_le_pow_left₀ hm0.le hmr 2)))
    (up (by have := pow_le_pow_left₀ (sq_nonneg m) mLr 2; linarith [(by ring : m ^ 4 = (m ^ 2) ^ 2)])) t5 ha hb hc hD
  change |D.1 - _| ≤ 166 * ((2 : ℝ)⁻¹ ^ F.prec * (L * R) ^ 2) at h2
  obtain ⟨D1, D2⟩ := abs_le.1 h2
  refine ⟨δ, h1, ?_, ?_⟩
  · intro hcl
    have hDτ : τ < D.1 := by linarith
    have hδ0 : 0 ≤ δ := by obtain ⟨_, _, _, _, h⟩ := h1.1; rw [h]; exact Real.sqrt_nonneg _
    have hlt : δ < s.radius.1 := by
      by_contra hcon
      have h5 := pow_le_pow_left₀ hr.le (not_lt.1 hcon) 2
      have h6 := mul_nonneg (by positivity : 0 ≤ 4 * L ^ 2) (sub_nonneg.2 h5)
      have hX : 0 ≤ (2 : ℝ)⁻¹ ^ F.prec * (L * R) ^ 2 := by positivity
      linarith
    obtain ⟨s₁, s₂, g1, g2, g3⟩ := h4 (by linarith) hlt
    refine ⟨s₁, s₂, g1, g2, ?_⟩
    have hres' : intersectSphereSegment s g e = ⟨o1, o2⟩ := by
      rw [hres, if_pos (hg' _ hDτ)]
      cases o1 <;> cases o2 <;> rfl
    intro o t hot
    obtain ⟨t', ht', ho⟩ : ∃ t', (t = s₁ ∧ t' = (-b + HasSqrt.sqrt D) / (2 * a) ∨ t = s₂ ∧ t' = (-b - HasSqrt.sqrt D) / (2 * a)) ∧
        o = if Tol.isGreaterEq t' 0 e && Tol.isLessEq t' 1 e then some (vadd g.source (vscale (vsub g.target g.source) t')) else none := by
      rw [hres'] at hot
      rcases hot with h | h
      · exact ⟨_, .inl ⟨h.2, rfl⟩, h.1.trans ho1⟩
      · exact ⟨_, .inr ⟨h.2, rfl⟩, h.1.trans ho2⟩
    obtain ⟨g4, g5⟩ := g3 t t' ht'
    change _ ≤ 75 * ((2 : ℝ)⁻¹ ^ F.prec * (R ^ 2 / Real.sqrt (s.radius.1 ^ 2 - δ ^ 2))) at g4
    have g6 : |t'.1 - t| ≤ 75 * ((2 : ℝ)⁻¹ ^ F.prec * (R ^ 2 / Real.sqrt (s.radius.1 ^ 2 - δ ^ 2))) / L := by
      rw [le_div_iff₀ hL0, mul_comm]; exact g4
    obtain ⟨g7, g8⟩ := abs_le.1 g6
    refine ⟨?_, ?_, ?_⟩
    · intro y hy
      rw [ho] at hy
      split at hy
      · rw [Option.some.injEq] at hy
        rw [← hy]; exact g5
      · simp at hy
    · intro hm hm'
      rw [ho, hq' _ (by linarith), hl' _ (by linarith)]; rfl
    · intro hm
      rw [ho, if_neg]
      rw [Bool.and_eq_true]
      rintro ⟨k1, k2⟩
      have := hq _ k1
      have := hl _ k2
      rcases hm with hm | hm <;> linarith
  · intro hcl
    have hDτ : D.1 < -τ := by linarith
    have n1 : Tol.isGreater D 0 e = false := by
      cases hgr : Tol.isGreater D 0 e
      · rfl
      · have := hg _ hgr; linarith
    have n2 : Tol.isZero D e = false := by
      cases hzz : Tol.isZero D e
      · rfl
      · have := (abs_le.1 (hz _ hzz)).1; linarith
    rw [hres, n1, n2]; rfl
end

/-! ### Concrete cases -/
section Examples
attribute [local instance] tol64

theorem gr64 : (∀ x : Fl binary64, Tol.isGreater x 0 Tol.eps = true → 0 ≤ x.1) ∧
    (∀ x : Fl binary64, 1 / 10 ^ 6 < x.1 → Tol.isGreater x 0 Tol.eps = true) := by
  refine ⟨greater64.1, fun x h => ?_⟩
  cases hx : Tol.isGreater x 0 Tol.eps
  · have := greater64.2 x hx; linarith
  · rfl

theorem zero64 (x : Fl binary64) (h : Tol.isZero x Tol.eps = true) : |x.1| ≤ 1 / 10 ^ 6 := by
  have h : decide (|x.1| < 1 / 10 ^ 6) = true := h
  rw [decide_eq_true_eq] at h
  exact h.le

theorem ge64 : (∀ x : Fl binary64, Tol.isGreaterEq x 0 Tol.eps = true → -(1 / 10 ^ 6) ≤ x.1) ∧
    (∀ x : Fl binary64, 0 ≤ x.1 → Tol.isGreaterEq x 0 Tol.eps = true) := by
  constructor
  · intro x h
    have h : decide ((0 : Fl binary64).1 ≤ x.1 + 1 / 10 ^ 6) = true := h
    rw [decide_eq_true_eq, Fl.val_zero] at h
    linarith
  · intro x h
    exact decide_eq_true (by rw [Fl.val_zero]; norm_num; linarith)

theorem le64 : (∀ x : Fl binary64, Tol.isLessEq x 1 Tol.eps = true → x.1 ≤ 1 + 1 / 10 ^ 6) ∧
    (∀ x : Fl binary64, x.1 ≤ 1 → Tol.isLessEq x 1 Tol.eps = true) := by
  constructor
  · intro x h
    have h : decide (x.1 ≤ (1 : Fl binary64).1 + 1 / 10 ^ 6) = true := h
    rw [decide_eq_true_eq, Fl.val_one] at h
    exact h
  · intro x h
    exact decide_eq_true (by rw [Fl.val_one]; norm_num; linarith)

theorem sm64 {r : ℝ} (hr : 1 ≤ r) (k : ℤ) (hk : binary64.emin = some k) :
    2 * (2 : ℝ) ^ k ≤ ((2 : ℝ)⁻¹ ^ binary64.prec) ^ 2 ∧ 2 * (2 : ℝ) ^ k ≤ ((2 : ℝ)⁻¹ ^ binary64.prec) ^ 2 * r ^ 2 := by
  have h : 2 * (2 : ℝ) ^ k ≤ ((2 : ℝ)⁻¹ ^ binary64.prec) ^ 2 := by
    cases hk
    calc 2 * (2 : ℝ) ^ (-1074 : ℤ) ≤ 2 * 2 ^ (-200 : ℤ) :=
          mul_le_mul_of_nonneg_left (zpow_le_zpow_right₀ (by norm_num) (by norm_num)) (by norm_num)
      _ ≤ _ := by show _ ≤ ((2 : ℝ)⁻¹ ^ 53) ^ 2; norm_num
  refine ⟨h, h.trans (le_mul_of_one_le_right (by positivity) (one_le_pow₀ hr))⟩

/-- The sphere of radius 5 about (1, 2, 3). -/
noncomputable def sphere64 : Sphere (Fl binary64) := ⟨p64 1 2 3, fl64 5⟩

theorem sphere64_radius : sphere64.radius.1 = 5 := by show (((5 : ℤ)) : ℝ) = 5; norm_num

/-- The distance of its centre from a line parallel to the z-axis. -/
theorem sphere64_dist (x : ℤ) (hx : |x| < 2 ^ 53) {w : ℝ} (hw : 0 < w) (D δ : ℝ) (hD : 0 ≤ D) (hxD : ((x : ℝ) - 1) ^ 2 = D ^ 2)
    (h : Spec.IsDistance {fun i => ((p64 1 2 3) i).1} (Spec.line (fun i => ((p64 x 2 3 hx) i).1) ![0, 0, w]) δ) : δ = D := by
  have hn : Spec.norm (![0, 0, w] : Vec ℝ 3) = w := norm3 _ _ _ w hw.le (by ring)
  have h2 := line_distance (fun i => ((p64 1 2 3) i).1) (fun i => ((p64 x 2 3 hx) i).1) ![0, 0, w] (by rw [hn]; exact hw)
  rw [IsLeast.unique h h2]
  have e : (fun i => (((p64 x 2 3 hx) i).1 - ((p64 1 2 3) i).1)
      - (∑ j, (((p64 x 2 3 hx) j).1 - ((p64 1 2 3) j).1) * (![0, 0, w] : Vec ℝ 3) j) / Spec.norm (![0, 0, w] : Vec ℝ 3) ^ 2 * (![0, 0, w] : Vec ℝ 3) i)
      = ![(x : ℝ) - 1, 0, 0] := by
    have e0 : ((p64 x 2 3 hx) 0).1 = x := congrFun (p64_vals x 2 3 hx (by norm_num) (by norm_num)) 0
    have e1 : ((p64 x 2 3 hx) 1).1 = ((2 : ℤ) : ℝ) := congrFun (p64_vals x 2 3 hx (by norm_num) (by norm_num)) 1
    have e2 : ((p64 x 2 3 hx) 2).1 = ((3 : ℤ) : ℝ) := congrFun (p64_vals x 2 3 hx (by norm_num) (by norm_num)) 2
    have f0 : ((p64 1 2 3) 0).1 = ((1 : ℤ) : ℝ) := congrFun (p64_vals 1 2 3 (by norm_num) (by norm_num) (by norm_num)) 0
    have f1 : ((p64 1 2 3) 1).1 = ((2 : ℤ) : ℝ) := congrFun (p64_vals 1 2 3 (by norm_num) (by norm_num) (by norm_num)) 1
    have f2 : ((p64 1 2 3) 2).1 = ((3 : ℤ) : ℝ) := congrFun (p64_vals 1 2 3 (by norm_num) (by norm_num) (by norm_num)) 2
    rw [Fin.sum_univ_three, e0, e1, e2, f0, f1, f2]
    funext i
    fin_cases i
    · show ((p64 x 2 3 hx) 0).1 - ((p64 1 2 3) 0).1 - _ = (x : ℝ) - 1
      rw [e0, f0]; simp
    · show ((p64 x 2 3 hx) 1).1 - ((p64 1 2 3) 1).1 - _ = (0 : ℝ)
      rw [e1, f1]; simp
    · show ((p64 x 2 3 hx) 2).1 - ((p64 1 2 3) 2).1 - _ = (0 : ℝ)
      rw [e2, f2]; simp
  rw [e]
  exact norm3 _ _ _ D hD (by rw [hxD]; ring)

/-- The line through (4, 2, 3) along the z-axis meets it in (4, 2, 7) and (4, 2, -1). -/
theorem sphere64_params {w s₁ s₂ : ℝ} (hw : 0 < w) (hlt : s₂ < s₁)
    (h : Spec.sphere (fun i => ((p64 1 2 3) i).1) (fl64 5).1 ∩ Spec.line (fun i => ((p64 4 2 3) i).1) ![0, 0, w]
      = {Spec.pointAt (fun i => ((p64 4 2 3) i).1) ![0, 0, w] s₁, Spec.pointAt (fun i => ((p64 4 2 3) i).1) ![0, 0, w] s₂}) :
    s₁ * w = 4 ∧ s₂ * w = -4 := by
  have h5 : (fl64 5).1 = 5 := sphere64_radius
  rw [p64_vals, p64_vals, h5] at h
  have m1 := (Set.ext_iff.1 h (![4, 2, 7] : Vec ℝ 3)).1 (by
    refine ⟨?_, 4 / w, ?_⟩
    · exact dist3 _ _ _ _ _ _ 5 (by norm_num) (by norm_num)
    · funext i; fin_cases i <;> (simp [Spec.pointAt]; try (field_simp; norm_num)))
  have m2 := (Set.ext_iff.1 h (![4, 2, -1] : Vec ℝ 3)).1 (by
    refine ⟨?_, -4 / w, ?_⟩
    · exact dist3 _ _ _ _ _ _ 5 (by norm_num) (by norm_num)
    · funext i; fin_cases i <;> (simp [Spec.pointAt]; try (field_simp; norm_num)))
  have key : ∀ s z : ℝ, (![4, 2, z] : Vec ℝ 3) = Spec.pointAt ![((4 : ℤ) : ℝ), ((2 : ℤ) : ℝ), ((3 : ℤ) : ℝ)] ![0, 0, w] s → s * w = z - 3 := by
    intro s z hz
    have : z = ((3 : ℤ) : ℝ) + s * w := congrFun hz 2
    push_cast at this
    linarith
  have hlt' := mul_lt_mul_of_pos_right hlt hw
  rcases m1 with m1 | m1 <;> rcases m2 with m2 | m2 <;>
    (have k1 := key _ _ m1; have k2 := key _ _ m2; exact ⟨by linarith, by linarith⟩)

theorem sphere64_R (x : ℤ) (hx : |x| < 2 ^ 53) (D : ℝ) (hD : 0 ≤ D) (hxD : ((x : ℝ) - 1) ^ 2 = D ^ 2) :
    D + 5 = Spec.dist (fun i => ((p64 x 2 3 hx) i).1) (fun i => ((p64 1 2 3) i).1) + (fl64 5).1 := by
  rw [p64_vals, p64_vals, dist3 _ _ _ _ _ _ D hD (by push_cast; rw [hxD]; ring)]
  exact congrArg _ sphere64_radius.symm

theorem z64 : (fun i => ((p64 0 0 1) i).1) = ![0, 0, 1] := by rw [p64_vals]; norm_num

/-- Two points reported, right to eleven digits. -/
example : ∃ p q, intersectSphereLine sphere64 ⟨p64 4 2 3, p64 0 0 1⟩ = ⟨some p, some q⟩ ∧ |(p 2).1 - 7| ≤ 1 / 10 ^ 11 ∧ |(q 2).1 + 1| ≤ 1 / 10 ^ 11 := by
  obtain ⟨-, -, δ, h1, h2, -⟩ := C107_line sphere64 ⟨p64 4 2 3, p64 0 0 1⟩ Tol.eps (by show 11 ≤ 53; norm_num) (R := 8) (η := 0) (τ := 1 / 10 ^ 6)
    (by rw [sphere64_radius]; norm_num) (sm64 (by rw [sphere64_radius]; norm_num)) (by rw [unitZ64]; norm_num) (by norm_num)
    (by refine Eq.trans ?_ (sphere64_R 4 (by norm_num) 3 (by norm_num) (by norm_num)); norm_num)
    (by norm_num) gr64.1 gr64.2 zero64
  have hδ : δ = 3 := by
    refine sphere64_dist 4 (by norm_num) one_pos 3 δ (by norm_num) (by norm_num) ?_
    rw [← z64]; exact h1
  subst hδ
  have hu := unit64'
  obtain ⟨p, q, s₁, s₂, k1, k2, k3, k4⟩ := h2 (by
    rw [sphere64_radius]
    generalize (2 : ℝ)⁻¹ ^ binary64.prec = μ at hu
    norm_num at hu ⊢; linarith)
  obtain ⟨e1, e2⟩ := sphere64_params one_pos k2 (by rw [← z64]; exact k3)
  rw [mul_one] at e1 e2
  subst e1 e2
  refine ⟨p, q, k1, ?_, ?_⟩
  · have h := k4 p 4 (.inl ⟨rfl, rfl⟩) 2
    have e : Spec.pointAt (fun i => ((p64 4 2 3) i).1) (fun i => ((p64 0 0 1) i).1) 4 2 = 7 := by
      rw [p64_vals, z64]; simp [Spec.pointAt]; norm_num
    rw [sphere64_radius, show ((5 : ℝ) ^ 2 - 3 ^ 2) = 4 ^ 2 by norm_num, Real.sqrt_sq (by norm_num)] at h
    simp only [e] at h
    generalize (2 : ℝ)⁻¹ ^ binary64.prec = μ at hu h
    norm_num at hu h ⊢; linarith
  · have h := k4 q (-4) (.inr ⟨rfl, rfl⟩) 2
    have e : Spec.pointAt (fun i => ((p64 4 2 3) i).1) (fun i => ((p64 0 0 1) i).1) (-4) 2 = -1 := by
      rw [p64_vals, z64]; simp [Spec.pointAt]; norm_num
    rw [sphere64_radius, show ((5 : ℝ) ^ 2 - 3 ^ 2) = 4 ^ 2 by norm_num, Real.sqrt_sq (by norm_num)] at h
    simp only [e] at h
    generalize (2 : ℝ)⁻¹ ^ binary64.prec = μ at hu h
    norm_num at hu h ⊢; linarith

/-- A line that stays away from the sphere. -/
example : intersectSphereLine sphere64 ⟨p64 8 2 3, p64 0 0 1⟩ = ⟨none, none⟩ := by
  obtain ⟨-, -, δ, h1, -, h2⟩ := C107_line sphere64 ⟨p64 8 2 3, p64 0 0 1⟩ Tol.eps (by show 11 ≤ 53; norm_num) (R := 12) (η := 0) (τ := 1 / 10 ^ 6)
    (by rw [sphere64_radius]; norm_num) (sm64 (by rw [sphere64_radius]; norm_num)) (by rw [unitZ64]; norm_num) (by norm_num)
    (by refine Eq.trans ?_ (sphere64_R 8 (by norm_num) 7 (by norm_num) (by norm_num)); norm_num)
    (by norm_num) gr64.1 gr64.2 zero64
  have hδ : δ = 7 := by
    refine sphere64_dist 8 (by norm_num) one_pos 7 δ (by norm_num) (by norm_num) ?_
    rw [← z64]; exact h1
  subst hδ
  have hu := unit64'
  refine h2 ?_
  rw [sphere64_radius]
  generalize (2 : ℝ)⁻¹ ^ binary64.prec = μ at hu
  norm_num at hu ⊢; linarith

/-- A line that touches the sphere: a single point reported is a rounded point whose distance from the centre is right to six digits. -/
example (p : Vec (Fl binary64) 3) (h : intersectSphereLine sphere64 ⟨p64 6 2 3, p64 0 0 1⟩ = ⟨some p, none⟩) :
    ∃ x ∈ Spec.line (fun i => ((p64 6 2 3) i).1) (fun i => ((p64 0 0 1) i).1),
      |Spec.dist x (fun i => ((p64 1 2 3) i).1) - 5| ≤ 1 / 10 ^ 6 ∧ ∀ i, |(p i).1 - x i| ≤ 1 / 10 ^ 12 * (|x i| + 1) := by
  obtain ⟨-, h2, -⟩ := C107_line sphere64 ⟨p64 6 2 3, p64 0 0 1⟩ Tol.eps (by show 11 ≤ 53; norm_num) (R := 10) (η := 0) (τ := 1 / 10 ^ 6)
    (by rw [sphere64_radius]; norm_num) (sm64 (by rw [sphere64_radius]; norm_num)) (by rw [unitZ64]; norm_num) (by norm_num)
    (by refine Eq.trans ?_ (sphere64_R 6 (by norm_num) 5 (by norm_num) (by norm_num)); norm_num)
    (by norm_num) gr64.1 gr64.2 zero64
  obtain ⟨x, hx, k1, k2⟩ := h2 p h
  have hu := unit64'
  have hu0 : 0 ≤ (2 : ℝ)⁻¹ ^ binary64.prec := by positivity
  refine ⟨x, hx, ?_, fun i => (k2 i).trans ?_⟩
  · rw [sphere64_radius] at k1
    change 5 * |Spec.dist x (fun i => ((p64 1 2 3) i).1) - 5| ≤ _ at k1
    generalize (2 : ℝ)⁻¹ ^ binary64.prec = μ at hu hu0 k1
    have h3 : ((9 / 2 * 0 + 24 * μ) * 10) ^ 2 ≤ 240 ^ 2 * (μ * 1) := by
      have := mul_le_mul_of_nonneg_left (le_trans hu (by norm_num) : μ ≤ 1) hu0
      have e : ((9 / 2 * 0 + 24 * μ) * 10) ^ 2 = 240 ^ 2 * (μ * μ) := by ring
      rw [e]; linarith
    norm_num at hu k1 h3 ⊢; linarith
  · have := mul_le_mul_of_nonneg_right hu (abs_nonneg (x i))
    have h0 := abs_nonneg (x i)
    generalize (2 : ℝ)⁻¹ ^ binary64.prec = μ at hu hu0 this
    norm_num at hu this ⊢; linarith

/-- The ray from a point inside the sphere: one point reported, the one behind the origin is not. -/
example : ∃ p, intersectSphereRay sphere64 ⟨p64 4 2 3, p64 0 0 1⟩ = ⟨some p, none⟩ ∧ |(p 2).1 - 7| ≤ 1 / 10 ^ 11 := by
  obtain ⟨-, δ, h1, h2, -⟩ := C107_ray sphere64 ⟨p64 4 2 3, p64 0 0 1⟩ Tol.eps (by show 11 ≤ 53; norm_num) (R := 8) (η := 0) (τ := 1 / 10 ^ 6)
    (ρ := 1 / 10 ^ 6) (by rw [sphere64_radius]; norm_num) (sm64 (by rw [sphere64_radius]; norm_num)) (by rw [unitZ64]; norm_num) (by norm_num)
    (by refine Eq.trans ?_ (sphere64_R 4 (by norm_num) 3 (by norm_num) (by norm_num)); norm_num)
    (by norm_num) gr64.1 gr64.2 zero64 ge64.1 ge64.2
  have hδ : δ = 3 := by
    refine sphere64_dist 4 (by norm_num) one_pos 3 δ (by norm_num) (by norm_num) ?_
    rw [← z64]; exact h1
  subst hδ
  have hu := unit64'
  have hu0 : 0 ≤ (2 : ℝ)⁻¹ ^ binary64.prec := by positivity
  obtain ⟨s₁, s₂, k2, k3, k4⟩ := h2 (by
    rw [sphere64_radius]
    generalize (2 : ℝ)⁻¹ ^ binary64.prec = μ at hu
    norm_num at hu ⊢; linarith)
  obtain ⟨e1, e2⟩ := sphere64_params one_pos k2 (by rw [← z64]; exact k3)
  rw [mul_one] at e1 e2
  subst e1 e2
  rw [sphere64_radius, show ((5 : ℝ) ^ 2 - 3 ^ 2) = 4 ^ 2 by norm_num, Real.sqrt_sq (by norm_num)] at k4
  obtain ⟨a1, a2, -⟩ := k4 _ 4 (.inl ⟨rfl, rfl⟩)
  obtain ⟨-, -, b3⟩ := k4 _ (-4) (.inr ⟨rfl, rfl⟩)
  have hs := a2 (by generalize (2 : ℝ)⁻¹ ^ binary64.prec = μ at hu; norm_num at hu ⊢; linarith)
  have hn := b3 (by generalize (2 : ℝ)⁻¹ ^ binary64.prec = μ at hu; norm_num at hu ⊢; linarith)
  obtain ⟨p, hp⟩ := Option.isSome_iff_exists.1 hs
  refine ⟨p, ?_, ?_⟩
  · cases hr : intersectSphereRay sphere64 ⟨p64 4 2 3, p64 0 0 1⟩
    rw [hr] at hp hn
    simp only at hp hn
    rw [hp, hn]
  · have h := a1 p hp 2
    have e : Spec.pointAt (fun i => ((p64 4 2 3) i).1) (fun i => ((p64 0 0 1) i).1) 4 2 = 7 := by
      rw [p64_vals, z64]; simp [Spec.pointAt]; norm_num
    simp only [e] at h
    generalize (2 : ℝ)⁻¹ ^ binary64.prec = μ at hu h
    norm_num at hu h ⊢; linarith

/-- The segment from that point to (4, 2, 11). -/
example : ∃ p, intersectSphereSegment sphere64 ⟨p64 4 2 3, p64 4 2 11⟩ = ⟨some p, none⟩ ∧ |(p 2).1 - 7| ≤ 1 / 10 ^ 11 := by
  have hd : (fun i => ((p64 4 2 11) i).1 - ((p64 4 2 3) i).1) = ![0, 0, 8] := by
    have h1 := p64_vals 4 2 11 (by norm_num) (by norm_num) (by norm_num)
    have h2 := p64_vals 4 2 3 (by norm_num) (by norm_num) (by norm_num)
    funext i
    rw [congrFun h1 i, congrFun h2 i]
    fin_cases i <;> norm_num
  have hL : (8 : ℝ) = Spec.dist (fun i => ((p64 4 2 11) i).1) (fun i => ((p64 4 2 3) i).1) := by
    rw [p64_vals, p64_vals, dist3 _ _ _ _ _ _ 8 (by norm_num) (by norm_num)]
  obtain ⟨δ, h1, h2, -⟩ := C107_segment sphere64 ⟨p64 4 2 3, p64 4 2 11⟩ Tol.eps (by show 11 ≤ 53; norm_num) (R := 8) (L := 8) (m := 1)
    (τ := 1 / 10 ^ 6) (ρ := 1 / 10 ^ 6) (by rw [sphere64_radius]; norm_num) hL one_pos le_rfl (by norm_num) (by rw [sphere64_radius]; norm_num)
    (by
      rw [sphere64_radius]
      intro k hk
      cases hk
      have h3 : (2 : ℝ) ^ (-1074 : ℤ) ≤ 2 ^ (-200 : ℤ) := zpow_le_zpow_right₀ (by norm_num) (by norm_num)
      have h4 : (2 : ℝ) ^ (-200 : ℤ) * 8 ≤ ((2 : ℝ)⁻¹ ^ binary64.prec) ^ 2 := by show _ ≤ ((2 : ℝ)⁻¹ ^ 53) ^ 2; norm_num
      have h5 : 0 ≤ ((2 : ℝ)⁻¹ ^ binary64.prec) ^ 2 := by positivity
      have h6 : (0 : ℝ) ≤ 2 ^ (-200 : ℤ) := by positivity
      generalize (2 : ℝ) ^ (-1074 : ℤ) = x at h3 ⊢
      generalize (2 : ℝ) ^ (-200 : ℤ) = y at h3 h4 h6
      generalize ((2 : ℝ)⁻¹ ^ binary64.prec) ^ 2 = z at h4 h5 ⊢
      constructor <;> linarith)
    (by refine Eq.trans ?_ (sphere64_R 4 (by norm_num) 3 (by norm_num) (by norm_num)); norm_num)
    (by norm_num) gr64.1 gr64.2 zero64 ge64.1 ge64.2 le64.1 le64.2
  have hδ : δ = 3 := by
    refine sphere64_dist 4 (by norm_num) (w := 8) (by norm_num) 3 δ (by norm_num) (by norm_num) ?_
    rw [← hd]; exact h1
  subst hδ
  have hu := unit64'
  have hu0 : 0 ≤ (2 : ℝ)⁻¹ ^ binary64.prec := by positivity
  obtain ⟨s₁, s₂, k2, k3, k4⟩ := h2 (by
    rw [sphere64_radius]
    generalize (2 : ℝ)⁻¹ ^ binary64.prec = μ at hu
    norm_num at hu ⊢; linarith)
  obtain ⟨e1, e2⟩ := sphere64_params (w := 8) (by norm_num) k2 (by rw [← hd]; exact k3)
  obtain rfl : s₁ = 1 / 2 := by linarith
  obtain rfl : s₂ = -(1 / 2) := by linarith
  rw [sphere64_radius, show ((5 : ℝ) ^ 2 - 3 ^ 2) = 4 ^ 2 by norm_num, Real.sqrt_sq (by norm_num)] at k4
  obtain ⟨a1, a2, -⟩ := k4 _ (1 / 2) (.inl ⟨rfl, rfl⟩)
  obtain ⟨-, -, b3⟩ := k4 _ (-(1 / 2)) (.inr ⟨rfl, rfl⟩)
  have hs := a2 (by generalize (2 : ℝ)⁻¹ ^ binary64.prec = μ at hu; norm_num at hu ⊢; linarith)
    (by generalize (2 : ℝ)⁻¹ ^ binary64.prec = μ at hu; norm_num at hu ⊢; linarith)
  have hn := b3 (.inl (by generalize (2 : ℝ)⁻¹ ^ binary64.prec = μ at hu; norm_num at hu ⊢; linarith))
  obtain ⟨p, hp⟩ := Option.isSome_iff_exists.1 hs
  refine ⟨p, ?_, ?_⟩
  · cases hr : intersectSphereSegment sphere64 ⟨p64 4 2 3, p64 4 2 11⟩
    rw [hr] at hp hn
    simp only at hp hn
    rw [hp, hn]
  · have h := a1 p hp 2
    have e : Spec.pointAt (fun i => ((p64 4 2 3) i).1) (fun i => ((p64 4 2 11) i).1 - ((p64 4 2 3) i).1) (1 / 2) 2 = 7 := by
      rw [hd, p64_vals]; simp [Spec.pointAt]; norm_num
    simp only [e] at h
    generalize (2 : ℝ)⁻¹ ^ binary64.prec = μ at hu h
    norm_num at hu h ⊢; linarith
end Examples
end Verif
