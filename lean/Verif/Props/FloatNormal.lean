import Verif.Proofs.FloatNormal
import Verif.Props.RoundTrip

set_option linter.unusedSectionVars false

/-
C111: facet and vertex normals in floating point.
-/
namespace Verif
open Spec

variable {F : FloatFormat}

/-- The numbers in the corners. -/
def trueTriangle (t : Vec (Fl F) 3 × Vec (Fl F) 3 × Vec (Fl F) 3) : Vec ℝ 3 × Vec ℝ 3 × Vec ℝ 3 := mapTriangle (fun p i => (p i).1) t

theorem twiceArea_eq (t : Vec ℝ 3 × Vec ℝ 3 × Vec ℝ 3) : twiceArea t = Spec.norm (cross (vsub t.2.1 t.1) (vsub t.2.2 t.2.1)) := by
  rw [cross_sub_right, cross_eq]; rfl

theorem twiceArea_le (t : Vec ℝ 3 × Vec ℝ 3 × Vec ℝ 3) : twiceArea t ≤ sidesProduct t := by
  rw [twiceArea_eq]
  unfold sidesProduct
  have h : ∀ e f : Vec ℝ 3, Spec.norm (cross e f) ≤ Spec.norm e * Spec.norm f := by
    intro e f
    refine Real.sqrt_le_iff.2 ⟨mul_nonneg (norm_nonneg' _) (norm_nonneg' _), ?_⟩
    rw [mul_pow, norm_sq', norm_sq']
    simp only [Fin.sum_univ_three]
    simp [cross]
    nlinarith [sq_nonneg (e 0 * f 0 + e 1 * f 1 + e 2 * f 2)]
  exact h _ _

theorem normalOf_err (t : Vec (Fl F) 3 × Vec (Fl F) 3 × Vec (Fl F) 3) (hp : 9 ≤ F.prec) (hA0 : 0 < twiceArea (trueTriangle t))
    (hsmall : ∀ k, F.emin = some k → k ≤ -2 * (F.prec : ℤ) ∧ (2 : ℝ) ^ ((k + 1) / 2) ≤ (2 : ℝ)⁻¹ ^ F.prec * (twiceArea (trueTriangle t) / 2))
    (hshape : 16 * ((2 : ℝ)⁻¹ ^ F.prec * sidesProduct (trueTriangle t)) ≤ twiceArea (trueTriangle t)) :
    IsNormal (trueTriangle t) (normalOf (trueTriangle t)) ∧
    Spec.dist (Fl.vals (normalOf t)) (normalOf (trueTriangle t)) ≤ 21 * (2 : ℝ)⁻¹ ^ F.prec * (sidesProduct (trueTriangle t) / twiceArea (trueTriangle t)) ∧
    |Spec.norm (Fl.vals (normalOf t)) - 1| ≤ 8 * (2 : ℝ)⁻¹ ^ F.prec := by
  have hD : 64 * (3 + 2) ≤ 2 ^ F.prec := le_trans (by norm_num) (Nat.pow_le_pow_right (by norm_num) hp)
  obtain ⟨ht0, ht1, ht2⟩ := tiny_of_length (by positivity : 0 < twiceArea (trueTriangle t) / 2) hsmall
  obtain ⟨f1, f2, f3, f4⟩ := dim_facts (D := 3) hD ht0
  have hu0 := F.unit_pos
  have ht00 := F.tiny_nonneg
  have hu : F.unit ≤ 1 / 256 := by push_cast at f2; linarith
  have hPA := twiceArea_le (trueTriangle t)
  have hN := twiceArea_eq (trueTriangle t)
  have hc := cross_err (vsub t.2.1 t.1) (vsub t.2.2 t.2.1) (vsub (trueTriangle t).2.1 (trueTriangle t).1)
    (vsub (trueTriangle t).2.2 (trueTriangle t).2.1) hu (fun i => Fl.sub_rel _ _) (fun i => Fl.sub_rel _ _)
  change _ ≤ 51 / 8 * F.unit * sidesProduct (trueTriangle t) + _ at hc
  change 16 * (F.unit * _) ≤ _ at hshape
  change _ ∧ _ ≤ 21 * F.unit * _ ∧ _ ≤ 8 * F.unit
  set w := cross (vsub (trueTriangle t).2.1 (trueTriangle t).1) (vsub (trueTriangle t).2.2 (trueTriangle t).2.1) with hw
  set w' := cross (vsub t.2.1 t.1) (vsub t.2.2 t.2.1) with hw'
  set A := twiceArea (trueTriangle t) with hA
  set P := sidesProduct (trueTriangle t) with hP
  have hw0 : w ≠ 0 := by
    intro h
    rw [hN, h] at hA0
    simp [Spec.norm] at hA0
  have hnd : NonDegenerate (trueTriangle t) := (nonDegenerate_iff _).2 hw0
  have hUA : F.unit * F.unit * (A / 2) ≤ 1 / 256 * (F.unit * A / 2) := by
    have := mul_le_mul_of_nonneg_right hu (show 0 ≤ F.unit * A / 2 by positivity)
    linarith
  have hUP : F.unit * A ≤ F.unit * P := mul_le_mul_of_nonneg_left hPA hu0.le
  have hN' := norm_sub_norm (Fl.vals w') w
  rw [← hN] at hN'
  have hlow : A / 2 ≤ Spec.norm (Fl.vals w') := by
    have := (abs_le.1 hN').1
    linarith
  have hH0 : 0 < Spec.norm (Fl.vals w') := by linarith
  have hs1 : F.unit * F.unit * (A / 2) ≤ F.unit * F.unit * Spec.norm (Fl.vals w') := mul_le_mul_of_nonneg_left hlow (by positivity)
  have hs2 : F.unit * F.unit * (A / 2) ^ 2 ≤ F.unit * F.unit * Spec.norm (Fl.vals w') ^ 2 :=
    mul_le_mul_of_nonneg_left (pow_le_pow_left₀ (by positivity) hlow 2) (by positivity)
  have hn := normalize_err w' rfl hH0 hD ht0 (ht1.trans hs1) (ht2.trans hs2)
  push_cast at hn
  have e : normalOf (trueTriangle t) = fun i => w i / Spec.norm w := (normalized_eq w).symm
  refine ⟨(isNormal_iff hnd _).2 rfl, ?_, ?_⟩
  · rw [e]
    have hd := unit_diff (hN ▸ hA0 : 0 < Spec.norm w) hH0
    rw [← hN] at hd ⊢
    have htri := dist_triangle' (Fl.vals (normalOf t)) (fun i => (w' i).1 / Spec.norm (Fl.vals w')) (fun i => w i / A)
    have h1 : (1 : ℝ) ≤ P / A := by rw [le_div_iff₀ hA0]; linarith
    have h2 : 2 * Spec.dist (Fl.vals w') w / A ≤ (51 / 4 + 45 / 1024) * (F.unit * (P / A)) := by
      rw [div_le_iff₀ hA0]
      have : (51 / 4 + 45 / 1024) * (F.unit * (P / A)) * A = (51 / 4 + 45 / 1024) * (F.unit * P) := by field_simp
      rw [this]
      linarith
    have h3 : F.unit ≤ F.unit * (P / A) := le_mul_of_one_le_right hu0.le h1
    change _ ≤ Spec.dist (Fl.vals (normalize w')) _ + Spec.dist (fun i => Fl.vals w' i / Spec.norm (Fl.vals w')) _ at htri
    change Spec.dist (Fl.vals (normalize w')) _ ≤ _ at htri
    change Spec.dist (Fl.vals (normalize w')) _ ≤ _
    linarith
  · have hnn : Spec.norm (fun i => (w' i).1 / Spec.norm (Fl.vals w')) = 1 := by
      have e : (fun i => (w' i).1 / Spec.norm (Fl.vals w')) = fun i => (Spec.norm (Fl.vals w'))⁻¹ * Fl.vals w' i := by
        funext i; rw [div_eq_inv_mul]; rfl
      rw [e, norm_smul' (by positivity), inv_mul_cancel₀ hH0.ne']
    have h2 := (norm_sub_norm (Fl.vals (normalize w')) (fun i => (w' i).1 / Spec.norm (Fl.vals w'))).trans hn
    rw [hnn] at h2
    change |Spec.norm (Fl.vals (normalize w')) - 1| ≤ _
    linarith

/-- Normalising again. -/
theorem renormalize_err (n : Vec (Fl F) 3) (hp : 9 ≤ F.prec) (ht : F.tiny ≤ F.unit * F.unit / 4) (hn : |Spec.norm (Fl.vals n) - 1| ≤ 8 * F.unit) :
    Spec.dist (Fl.vals (normalize n)) (Fl.vals n) ≤ 16 * F.unit := by
  have hD : 64 * (3 + 2) ≤ 2 ^ F.prec := le_trans (by norm_num) (Nat.pow_le_pow_right (by norm_num) hp)
  have hu0 := F.unit_pos
  have ht00 := F.tiny_nonneg
  have huu : 0 < F.unit * F.unit := by positivity
  have ht0 : F.tiny ≤ F.unit * F.unit := by linarith
  obtain ⟨f1, f2, f3, f4⟩ := dim_facts (D := 3) hD ht0
  have hu : F.unit ≤ 1 / 256 := by push_cast at f2; linarith
  obtain ⟨h1, h2⟩ := abs_le.1 hn
  set H := Spec.norm (Fl.vals n) with hH
  have hH1 : 1 / 2 ≤ H := by linarith
  have hs1 : F.unit * F.unit * (1 / 2) ≤ F.unit * F.unit * H := mul_le_mul_of_nonneg_left hH1 huu.le
  have hs2 : F.unit * F.unit * (1 / 2) ^ 2 ≤ F.unit * F.unit * H ^ 2 :=
    mul_le_mul_of_nonneg_left (pow_le_pow_left₀ (by norm_num) hH1 2) huu.le
  have h := normalize_err n hH.symm (by linarith) hD ht0 (by linarith) (by linarith)
  have htri := dist_triangle' (Fl.vals (normalize n)) (fun i => (n i).1 / H) (Fl.vals n)
  have e : Spec.dist (fun i => (n i).1 / H) (Fl.vals n) = |H - 1| := by
    have e1 : Spec.dist (fun i => (n i).1 / H) (Fl.vals n) = Spec.norm (fun i => |H⁻¹ - 1| * Fl.vals n i) := by
      rw [← norm_abs']
      unfold Spec.dist Spec.norm
      congr 1
      refine Finset.sum_congr rfl fun i _ => ?_
      rw [sq_abs, mul_pow, sq_abs, ← mul_pow]
      congr 1
      show (n i).1 / H - (n i).1 = (H⁻¹ - 1) * (n i).1
      rw [div_eq_inv_mul]; ring
    have hH0 : 0 < H := by linarith
    rw [e1, norm_smul' (abs_nonneg _), ← hH, ← abs_of_pos hH0, ← abs_mul, abs_of_pos hH0, abs_sub_comm H]
    congr 1
    field_simp
  rw [e] at htri
  push_cast at h
  linarith

/-- Adding up vectors of about unit length. -/
theorem sum_err {b : ℝ} (hb : 0 ≤ b) (l : List (Vec (Fl F) 3)) (hl : ∀ x ∈ l, Spec.norm (Fl.vals x) ≤ b) (hk : (l.length : ℝ) * F.unit ≤ 1) :
    Spec.dist (Fl.vals (l.foldl vadd fun _ => 0)) (fun i => (l.map fun x => (x i).1).sum) ≤ F.unit * (l.length : ℝ) ^ 2 * b ∧
    Spec.norm (fun i => (l.map fun x => (x i).1).sum) ≤ l.length * b := by
  have hu0 := F.unit_pos
  induction l using List.reverseRecOn with
  | nil => simp [Spec.dist, Spec.norm, Fl.vals, Fl.val_zero]
  | append_singleton l x ih =>
    simp only [List.length_append, List.length_singleton, Nat.cast_add, Nat.cast_one] at hk ⊢
    have hk' : (l.length : ℝ) * F.unit ≤ 1 := by linarith
    obtain ⟨ih1, ih2⟩ := ih (fun y hy => hl y (by simp [hy])) hk'
    have hx := hl x (by simp)
    rw [List.foldl_append]
    simp only [List.foldl_cons, List.foldl_nil, List.map_append, List.map_cons, List.map_nil, List.sum_append, List.sum_cons, List.sum_nil, add_zero]
    set s := l.foldl vadd fun _ => (0 : Fl F) with hs
    set X : Vec ℝ 3 := fun i => (l.map fun x => (x i).1).sum with hX
    have h2 : Spec.norm (fun i => X i + (x i).1) ≤ ((l.length : ℝ) + 1) * b := by
      refine (norm_add_le' X (Fl.vals x)).trans ?_
      linarith
    refine ⟨?_, h2⟩
    have h3 : Spec.dist (fun i => (s i).1 + (x i).1) (fun i => X i + (x i).1) = Spec.dist (Fl.vals s) X := by
      unfold Spec.dist Fl.vals; simp
    have h4 : Spec.norm (fun i => (s i).1 + (x i).1) ≤ ((l.length : ℝ) + 1) * b + F.unit * (l.length : ℝ) ^ 2 * b := by
      have := (abs_le.1 (norm_sub_norm (fun i => (s i).1 + (x i).1) (fun i => X i + (x i).1))).2
      rw [h3] at this
      linarith
    have h5 := dist_of_rel (a := Fl.vals (vadd s x)) (b := fun i => (s i).1 + (x i).1) hu0.le le_rfl
      (fun i => by rw [add_zero]; exact Fl.add_rel (s i) (x i))
    have h6 := dist_triangle' (Fl.vals (vadd s x)) (fun i => (s i).1 + (x i).1) (fun i => X i + (x i).1)
    rw [h3] at h6
    have h7 := mul_le_mul_of_nonneg_left h4 hu0.le
    have hk0 : (0 : ℝ) ≤ l.length := by positivity
    have h8 : F.unit * (F.unit * (l.length : ℝ) ^ 2 * b) ≤ F.unit * ((l.length : ℝ) * b) := by
      refine mul_le_mul_of_nonneg_left ?_ hu0.le
      have := mul_le_mul_of_nonneg_right hk' (show 0 ≤ (l.length : ℝ) * b by positivity)
      linarith
    have h9 : F.unit * ((l.length : ℝ) + 1) ^ 2 * b = F.unit * (l.length : ℝ) ^ 2 * b + 2 * (F.unit * ((l.length : ℝ) * b)) + F.unit * b := by ring
    have h10 : F.unit * (((l.length : ℝ) + 1) * b + F.unit * (l.length : ℝ) ^ 2 * b)
      = F.unit * ((l.length : ℝ) * b) + F.unit * b + F.unit * (F.unit * (l.length : ℝ) ^ 2 * b) := by ring
    simp only [add_zero, mul_zero] at h5
    linarith

variable [BEq (Vec (Fl F) 3)] [LawfulBEq (Vec (Fl F) 3)]

/-- **C111** The computed normal of a facet differs from the unit normal of its triangle by at most `21 u / sin φ`, where `φ` is the angle between the
first two sides, and its length from one by at most `8 u`; provided `sin φ` is at least `16 u` and the area does not underflow. -/
theorem C111_facet (dbg : Bool) (M : Nat) (ts : List (Vec (Fl F) 3 × Vec (Fl F) 3 × Vec (Fl F) 3)) (hM : 3 * ts.length < M)
    (m : HalfedgeMesh (Vec (Fl F) 3)) (hb : BuiltFrom dbg M ts m) (hp : 9 ≤ F.prec) (j : Nat) (hj : j < ts.length)
    (hA0 : 0 < twiceArea (trueTriangle ts[j]))
    (hsmall : ∀ k, F.emin = some k → k ≤ -2 * (F.prec : ℤ) ∧ (2 : ℝ) ^ ((k + 1) / 2) ≤ (2 : ℝ)⁻¹ ^ F.prec * (twiceArea (trueTriangle ts[j]) / 2))
    (hshape : 16 * ((2 : ℝ)⁻¹ ^ F.prec * sidesProduct (trueTriangle ts[j])) ≤ twiceArea (trueTriangle ts[j])) :
    ∃ f n' n, vecGet m.facets j = .ok f ∧ calcFacetNormal m f = .ok n' ∧ IsNormal (trueTriangle ts[j]) n ∧
      Spec.dist (fun i => (n' i).1) n ≤ 21 * (2 : ℝ)⁻¹ ^ F.prec * (sidesProduct (trueTriangle ts[j]) / twiceArea (trueTriangle ts[j])) ∧
      |Spec.norm (fun i => (n' i).1) - 1| ≤ 8 * (2 : ℝ)⁻¹ ^ F.prec := by
  obtain ⟨o, rfl⟩ := hb.eq hM
  have hl : (weld (corners ts)).2.length = 3 * ts.length := by rw [weld_length, corners_length]
  obtain ⟨h1, h2, h3⟩ := normalOf_err ts[j] hp hA0 hsmall hshape
  exact ⟨_, _, _, meshOfO_facet _ _ _ (by omega), calcFacetNormal_built o ts j hj, h1, h2, h3⟩

/-- A triangle whose normal is computed to within `δ`: the sine of the angle between its first two sides is at least `21 u / δ` and `16 u`, and
its area does not underflow. -/
structure Shaped (δ : ℝ) (t : Vec (Fl F) 3 × Vec (Fl F) 3 × Vec (Fl F) 3) : Prop where
  pos : 0 < twiceArea (trueTriangle t)
  small : ∀ k, F.emin = some k → (2 : ℝ) ^ ((k + 1) / 2) ≤ (2 : ℝ)⁻¹ ^ F.prec * (twiceArea (trueTriangle t) / 2)
  angle : 16 * ((2 : ℝ)⁻¹ ^ F.prec * sidesProduct (trueTriangle t)) ≤ twiceArea (trueTriangle t)
  accurate : 21 * (2 : ℝ)⁻¹ ^ F.prec * (sidesProduct (trueTriangle t) / twiceArea (trueTriangle t)) ≤ δ

theorem tiny_small (hmin : ∀ k, F.emin = some k → k ≤ -4 * (F.prec : ℤ)) (hp : 9 ≤ F.prec) : F.tiny ≤ F.unit ^ 4 ∧ F.unit ≤ 1 / 512 := by
  have hu : F.unit ≤ 1 / 512 := by
    unfold FloatFormat.unit
    rw [inv_pow, show (1 / 512 : ℝ) = (2 ^ 9)⁻¹ by norm_num]
    exact inv_anti₀ (by norm_num) (pow_le_pow_right₀ (by norm_num) hp)
  refine ⟨?_, hu⟩
  unfold FloatFormat.tiny
  split
  · have := F.unit_pos; positivity
  · next k hk =>
    have h1 := hmin k hk
    unfold FloatFormat.unit
    rw [← pow_mul, inv_pow, ← zpow_natCast, ← zpow_neg]
    exact zpow_le_zpow_right₀ (by norm_num) (by push_cast; omega)

theorem sum_dist {α : Type} {D : ℕ} {e : ℝ} (f g : α → Vec ℝ D) (l : List α) (h : ∀ x ∈ l, Spec.dist (f x) (g x) ≤ e) :
    Spec.dist (fun i => (l.map fun x => f x i).sum) (fun i => (l.map fun x => g x i).sum) ≤ l.length * e := by
  induction l with
  | nil => simp [Spec.dist]
  | cons x l ih =>
    have h1 := h x (by simp)
    have h2 := ih fun y hy => h y (by simp [hy])
    simp only [List.map_cons, List.sum_cons, List.length_cons, Nat.cast_add, Nat.cast_one]
    have h3 := norm_add_le' (fun i => f x i - g x i) (fun i => (l.map fun x => f x i).sum - (l.map fun x => g x i).sum)
    have h4 : Spec.dist (fun i => f x i + (l.map fun x => f x i).sum) (fun i => g x i + (l.map fun x => g x i).sum)
        = Spec.norm (fun i => (f x i - g x i) + ((l.map fun x => f x i).sum - (l.map fun x => g x i).sum)) := by
      unfold Spec.dist Spec.norm
      congr 1
      refine Finset.sum_congr rfl fun i _ => ?_
      ring
    rw [h4]
    refine h3.trans ?_
    change Spec.dist (f x) (g x) + Spec.dist (fun i => (l.map fun x => f x i).sum) (fun i => (l.map fun x => g x i).sum) ≤ _
    linarith

/-- The normal used for the vertices. -/
theorem used_normal_err (hp : 9 ≤ F.prec) (hmin : ∀ k, F.emin = some k → k ≤ -4 * (F.prec : ℤ)) {δ : ℝ}
    {t : Vec (Fl F) 3 × Vec (Fl F) 3 × Vec (Fl F) 3} (h : Shaped δ t) :
    IsNormal (trueTriangle t) (normalOf (trueTriangle t)) ∧
      Spec.dist (Fl.vals (normalize (normalOf t))) (normalOf (trueTriangle t)) ≤ δ + 16 * F.unit := by
  obtain ⟨ht, hu⟩ := tiny_small hmin hp
  have hu0 := F.unit_pos
  obtain ⟨h1, h2, h3⟩ := normalOf_err t hp h.pos (fun k hk => ⟨by have := hmin k hk; omega, h.small k hk⟩) h.angle
  have ht' : F.tiny ≤ F.unit * F.unit / 4 := by
    have e : F.unit ^ 4 = F.unit * F.unit * (F.unit * F.unit) := by ring
    have : F.unit * F.unit ≤ 1 / 512 * (1 / 512) := mul_le_mul hu hu hu0.le (by norm_num)
    have := mul_le_mul_of_nonneg_left this (show 0 ≤ F.unit * F.unit by positivity)
    have := mul_pos hu0 hu0
    linarith
  have h4 := renormalize_err (normalOf t) hp ht' h3
  have h5 := dist_triangle' (Fl.vals (normalize (normalOf t))) (Fl.vals (normalOf t)) (normalOf (trueTriangle t))
  have h6 := h.accurate
  exact ⟨h1, by linarith⟩

/-- The triangles `us` whose normals are added up: one for each computed normal. -/
theorem vertex_err (dbg : Bool) (M : Nat) (ts : List (Vec (Fl F) 3 × Vec (Fl F) 3 × Vec (Fl F) 3)) (hM : 3 * ts.length < M)
    (m : HalfedgeMesh (Vec (Fl F) 3)) (hb : BuiltFrom dbg M ts m) (hp : 9 ≤ F.prec) (hmin : ∀ k, F.emin = some k → k ≤ -4 * (F.prec : ℤ))
    {δ : ℝ} (hδ0 : 0 ≤ δ) (hδ : δ ≤ 1 / 16) (i : Nat) (hi : i < m.points.length)
    (hsh : ∀ t ∈ ts, m.points[i] ∈ [t.1, t.2.1, t.2.2] → Shaped δ t) :
    ∃ ns v, ∃ us : List (Vec (Fl F) 3 × Vec (Fl F) 3 × Vec (Fl F) 3),
      calcVertexNormals m = .ok ns ∧ ns[i]? = some v ∧
      us.Nodup ∧ (us.map fun t => normalize (normalOf t)).Nodup ∧ (∀ t ∈ us, t ∈ ts ∧ m.points[i] ∈ [t.1, t.2.1, t.2.2]) ∧
      (∀ t ∈ ts, m.points[i] ∈ [t.1, t.2.1, t.2.2] → ∃ t' ∈ us, normalize (normalOf t') = normalize (normalOf t)) ∧
      ∀ S, S = Spec.norm (fun j => (us.map fun t => normalOf (trueTriangle t) j).sum) → 0 < S → (us.length : ℝ) * (2 : ℝ)⁻¹ ^ F.prec ≤ 1 →
        2 * (us.length * (δ + 16 * (2 : ℝ)⁻¹ ^ F.prec) + 5 / 4 * ((2 : ℝ)⁻¹ ^ F.prec * (us.length : ℝ) ^ 2)) ≤ S →
        Spec.dist (fun j => (v j).1) (fun j => (us.map fun t => normalOf (trueTriangle t) j).sum / S)
          ≤ (2 * us.length * δ + (40 * us.length + 3 * (us.length : ℝ) ^ 2) * (2 : ℝ)⁻¹ ^ F.prec) / S := by
  classical
  obtain ⟨o, rfl⟩ := hb.eq hM
  obtain ⟨ht, hu⟩ := tiny_small hmin hp
  have hu0 := F.unit_pos
  have ht00 := F.tiny_nonneg
  obtain ⟨ns, h1, h2⟩ := calcVertexNormals_gen o ts
  obtain ⟨l, h3, h4⟩ := h2 i hi
  obtain ⟨n1, m1⟩ := sorted_unique l
  change ∀ t ∈ ts, (weld (corners ts)).1[i]'hi ∈ _ → _ at hsh
  show ∃ ns v, ∃ us : List (Vec (Fl F) 3 × Vec (Fl F) 3 × Vec (Fl F) 3), _ ∧ _ ∧ _ ∧ _ ∧
      (∀ t ∈ us, t ∈ ts ∧ (weld (corners ts)).1[i]'hi ∈ [t.1, t.2.1, t.2.2]) ∧
      (∀ t ∈ ts, (weld (corners ts)).1[i]'hi ∈ [t.1, t.2.1, t.2.2] → _) ∧ _
  set p := (weld (corners ts)).1[i]'hi with hpp
  set l' := stdUnique (l.mergeSort fun a b => !vecLexLt b a) with hl'
  have hex : ∀ x ∈ l', ∃ t, t ∈ ts ∧ p ∈ [t.1, t.2.1, t.2.2] ∧ x = normalize (normalOf t) := by
    intro x hx
    obtain ⟨t, a, b, c⟩ := (h3 x).1 ((m1 x).1 hx)
    exact ⟨t, a, b, c⟩
  let g : Vec (Fl F) 3 → Vec (Fl F) 3 × Vec (Fl F) 3 × Vec (Fl F) 3 := fun x =>
    if h : ∃ t, t ∈ ts ∧ p ∈ [t.1, t.2.1, t.2.2] ∧ x = normalize (normalOf t) then h.choose else (x, x, x)
  have hg : ∀ x ∈ l', g x ∈ ts ∧ p ∈ [(g x).1, (g x).2.1, (g x).2.2] ∧ x = normalize (normalOf (g x)) := by
    intro x hx
    have h := hex x hx
    have e : g x = h.choose := dif_pos h
    rw [e]
    exact h.choose_spec
  have hN : ∀ x ∈ l', IsNormal (trueTriangle (g x)) (normalOf (trueTriangle (g x))) ∧
      Spec.dist (Fl.vals x) (normalOf (trueTriangle (g x))) ≤ δ + 16 * F.unit := by
    intro x hx
    obtain ⟨a, b, c⟩ := hg x hx
    have := used_normal_err hp hmin (hsh _ a b)
    rwa [← c] at this
  have hcomp : ((l'.map g).map fun t => normalize (normalOf t)) = l' := by
    rw [List.map_map]
    conv_rhs => rw [← List.map_id l']
    exact List.map_congr_left fun x hx => (hg x hx).2.2.symm
  refine ⟨ns, _, l'.map g, h1, h4, ?_, hcomp.symm ▸ n1, ?_, ?_, ?_⟩
  · exact List.Nodup.of_map _ (hcomp.symm ▸ n1)
  · intro t ht
    obtain ⟨x, hx, rfl⟩ := List.mem_map.1 ht
    exact ⟨(hg x hx).1, (hg x hx).2.1⟩
  · intro t ht hpt
    have hx : normalize (normalOf t) ∈ l' := (m1 _).2 ((h3 _).2 ⟨t, ht, hpt, rfl⟩)
    exact ⟨_, List.mem_map_of_mem hx, (hg _ hx).2.2.symm⟩
  · intro S hS hS0 hk hbig
    rw [List.length_map] at hk hbig ⊢
    simp only [List.map_map, Function.comp_def] at hS ⊢
    change (l'.length : ℝ) * F.unit ≤ 1 at hk
    change 2 * (l'.length * (δ + 16 * F.unit) + 5 / 4 * (F.unit * (l'.length : ℝ) ^ 2)) ≤ S at hbig
    change _ ≤ (2 * l'.length * δ + (40 * l'.length + 3 * (l'.length : ℝ) ^ 2) * F.unit) / S
    have hlen : ∀ x ∈ l', Spec.norm (Fl.vals x) ≤ 9 / 8 := by
      intro x hx
      obtain ⟨a, b⟩ := hN x hx
      have c := (abs_le.1 ((norm_sub_norm (Fl.vals x) (normalOf (trueTriangle (g x)))).trans b)).2
      rw [a.1] at c
      linarith
    have hone : ∀ x ∈ l', Spec.norm (normalOf (trueTriangle (g x))) ≤ 1 := fun x hx => (hN x hx).1.1.le
    obtain ⟨s1, s2⟩ := sum_err (by norm_num : (0 : ℝ) ≤ 9 / 8) l' hlen hk
    have s3 := sum_dist (fun x => Fl.vals x) (fun x => normalOf (trueTriangle (g x))) l' fun x hx => (hN x hx).2
    set k : ℝ := (l'.length : ℝ) with hkk
    set s := l'.foldl vadd fun _ => (0 : Fl F) with hs
    set C : Vec ℝ 3 := fun j => (l'.map fun x => normalOf (trueTriangle (g x)) j).sum with hC
    have s4 := dist_triangle' (Fl.vals s) (fun i => (l'.map fun x => (x i).1).sum) C
    have s5 : Spec.dist (Fl.vals s) C ≤ k * (δ + 16 * F.unit) + 9 / 8 * (F.unit * k ^ 2) := by
      change Spec.dist (fun i => (l'.map fun x => (x i).1).sum) C ≤ _ at s3
      linarith
    have hk1 : 1 ≤ k := by
      rcases Nat.eq_zero_or_pos l'.length with h | h
      · rw [List.length_eq_zero_iff] at h
        rw [hC, h] at hS
        simp [Spec.norm] at hS
        linarith
      · rw [hkk]; exact_mod_cast h
    have hSk : S ≤ k := by
      rw [hS]
      have := sum_dist (fun x => normalOf (trueTriangle (g x))) (fun _ => (0 : Vec ℝ 3)) l' (e := 1) fun x hx => by
        rw [← norm_eq_dist]; exact hone x hx
      have e : (fun i : Fin 3 => (l'.map fun _ => (0 : Vec ℝ 3) i).sum) = (0 : Vec ℝ 3) := by funext i; simp
      rw [e, ← norm_eq_dist, mul_one] at this
      exact this
    have hkd : 0 ≤ k * δ := by positivity
    have hku : 0 ≤ k * F.unit := by positivity
    have hkku : 0 ≤ F.unit * k ^ 2 := by positivity
    have hH : S / 2 ≤ Spec.norm (Fl.vals s) := by
      have := (abs_le.1 (norm_sub_norm (Fl.vals s) C)).1
      rw [← hS] at this
      linarith
    have hku1 : F.unit ≤ k * F.unit := le_mul_of_one_le_left hu0.le hk1
    have hH16 : 16 * F.unit ≤ Spec.norm (Fl.vals s) := by linarith
    have hH0 : 0 < Spec.norm (Fl.vals s) := by linarith
    have hD : 64 * (3 + 2) ≤ 2 ^ F.prec := le_trans (by norm_num) (Nat.pow_le_pow_right (by norm_num) hp)
    have q2 : 0 < F.unit * F.unit := by positivity
    have q3 : F.unit ^ 4 ≤ F.unit * F.unit * F.unit := by
      have : F.unit * F.unit * F.unit * F.unit ≤ F.unit * F.unit * F.unit * 1 := mul_le_mul_of_nonneg_left (by linarith) (by positivity)
      nlinarith
    have q4 : F.unit * F.unit * F.unit ≤ F.unit * F.unit * 1 := mul_le_mul_of_nonneg_left (by linarith) q2.le
    have q5 : F.unit * F.unit * F.unit ≤ F.unit * F.unit * Spec.norm (Fl.vals s) := mul_le_mul_of_nonneg_left (by linarith) q2.le
    have q6 : F.unit ^ 4 ≤ F.unit * F.unit * Spec.norm (Fl.vals s) ^ 2 := by
      have : F.unit ^ 2 ≤ Spec.norm (Fl.vals s) ^ 2 := pow_le_pow_left₀ hu0.le (by linarith) 2
      have := mul_le_mul_of_nonneg_left this q2.le
      nlinarith
    have hn := normalize_err s rfl hH0 hD (by linarith) (by linarith) (by linarith)
    have hd := unit_diff (w := C) (w' := Fl.vals s) (hS ▸ hS0) hH0
    rw [← hS] at hd
    have htri := dist_triangle' (Fl.vals (normalize s)) (fun i => (s i).1 / Spec.norm (Fl.vals s)) (fun i => C i / S)
    change Spec.dist (Fl.vals (normalize s)) (fun i => C i / S) ≤ _
    change Spec.dist (fun i => (s i).1 / Spec.norm (Fl.vals s)) _ ≤ _ at hd
    push_cast at hn
    have h8 : 8 * F.unit ≤ 8 * (k * F.unit) / S := by
      rw [le_div_iff₀ hS0]
      have := mul_le_mul_of_nonneg_left hSk hu0.le
      linarith
    have h9 : 2 * Spec.dist (Fl.vals s) C / S ≤ (2 * (k * (δ + 16 * F.unit) + 9 / 8 * (F.unit * k ^ 2))) / S := by
      rw [div_le_div_iff_of_pos_right hS0]; linarith
    have h10 : 8 * (k * F.unit) / S + (2 * (k * (δ + 16 * F.unit) + 9 / 8 * (F.unit * k ^ 2))) / S
        ≤ (2 * k * δ + (40 * k + 3 * k ^ 2) * F.unit) / S := by
      rw [← add_div, div_le_div_iff_of_pos_right hS0]
      linarith
    linarith

/-- **C111** The computed normal of a vertex is the direction of a sum of unit normals of triangles at the vertex, one for every *computed* normal
that differs from the others, up to an error of `(2 k δ + (40 k + 3 k²) u) / |sum|` for `k` summands (`δ` bounds the errors of the facet normals).
No triangle is left out: each has a normal within `2 δ + 32 u` of one of the summands. -/
theorem C111_vertex (dbg : Bool) (M : Nat) (ts : List (Vec (Fl F) 3 × Vec (Fl F) 3 × Vec (Fl F) 3)) (hM : 3 * ts.length < M)
    (m : HalfedgeMesh (Vec (Fl F) 3)) (hb : BuiltFrom dbg M ts m) (hp : 9 ≤ F.prec) (hmin : ∀ k, F.emin = some k → k ≤ -4 * (F.prec : ℤ))
    {δ : ℝ} (hδ0 : 0 ≤ δ) (hδ : δ ≤ 1 / 16) (i : Nat) (hi : i < m.points.length)
    (hsh : ∀ t ∈ ts, m.points[i] ∈ [t.1, t.2.1, t.2.2] → Shaped δ t) :
    ∃ ns v, ∃ us : List (Vec (Fl F) 3 × Vec (Fl F) 3 × Vec (Fl F) 3), ∃ cs : List (Vec ℝ 3),
      calcVertexNormals m = .ok ns ∧ ns[i]? = some v ∧
      us.Nodup ∧ (∀ t ∈ us, t ∈ ts ∧ m.points[i] ∈ [t.1, t.2.1, t.2.2]) ∧ List.Forall₂ (fun t c => IsNormal (trueTriangle t) c) us cs ∧
      (∀ t ∈ ts, m.points[i] ∈ [t.1, t.2.1, t.2.2] → ∃ c ∈ cs, ∀ n, IsNormal (trueTriangle t) n → Spec.dist c n ≤ 2 * δ + 32 * (2 : ℝ)⁻¹ ^ F.prec) ∧
      ∀ S, S = Spec.norm (fun j => (cs.map (· j)).sum) → 0 < S → (cs.length : ℝ) * (2 : ℝ)⁻¹ ^ F.prec ≤ 1 →
        2 * (cs.length * (δ + 16 * (2 : ℝ)⁻¹ ^ F.prec) + 5 / 4 * ((2 : ℝ)⁻¹ ^ F.prec * (cs.length : ℝ) ^ 2)) ≤ S →
        Spec.dist (fun j => (v j).1) (fun j => (cs.map (· j)).sum / S)
          ≤ (2 * cs.length * δ + (40 * cs.length + 3 * (cs.length : ℝ) ^ 2) * (2 : ℝ)⁻¹ ^ F.prec) / S := by
  obtain ⟨ns, v, us, h1, h2, h3, -, h4, h5, h6⟩ := vertex_err dbg M ts hM m hb hp hmin hδ0 hδ i hi hsh
  refine ⟨ns, v, us, us.map fun t => normalOf (trueTriangle t), h1, h2, h3, h4, ?_, ?_, ?_⟩
  · rw [List.forall₂_map_right_iff, List.forall₂_same]
    exact fun t ht => (used_normal_err hp hmin (hsh t (h4 t ht).1 (h4 t ht).2)).1
  · intro t ht hpt
    obtain ⟨t', ht', he⟩ := h5 t ht hpt
    refine ⟨_, List.mem_map_of_mem ht', fun n hn => ?_⟩
    have hs := hsh t ht hpt
    obtain ⟨-, b⟩ := used_normal_err hp hmin hs
    obtain ⟨-, c⟩ := used_normal_err hp hmin (hsh t' (h4 t' ht').1 (h4 t' ht').2)
    have e : n = normalOf (trueTriangle t) := by
      refine (isNormal_iff ((nonDegenerate_iff _).2 ?_) n).1 hn
      intro h0
      have := hs.pos
      rw [twiceArea_eq, h0] at this
      simp [Spec.norm] at this
    rw [e]
    have d := dist_triangle' (normalOf (trueTriangle t')) (Fl.vals (normalize (normalOf t))) (normalOf (trueTriangle t))
    rw [he] at c
    rw [dist_comm' (normalOf (trueTriangle t')) (Fl.vals (normalize (normalOf t)))] at d
    change _ ≤ 2 * δ + 32 * F.unit
    linarith
  · simp only [List.map_map, Function.comp_def, List.length_map]
    exact h6

/-- **C111** If the triangles at a vertex have clearly different normals, its computed normal is the direction of the sum of all of them. -/
theorem C111_vertex_distinct (dbg : Bool) (M : Nat) (ts : List (Vec (Fl F) 3 × Vec (Fl F) 3 × Vec (Fl F) 3)) (hM : 3 * ts.length < M)
    (m : HalfedgeMesh (Vec (Fl F) 3)) (hb : BuiltFrom dbg M ts m) (hp : 9 ≤ F.prec) (hmin : ∀ k, F.emin = some k → k ≤ -4 * (F.prec : ℤ))
    {δ : ℝ} (hδ0 : 0 ≤ δ) (hδ : δ ≤ 1 / 16) (i : Nat) (hi : i < m.points.length)
    (at' : List (Vec (Fl F) 3 × Vec (Fl F) 3 × Vec (Fl F) 3)) (hat : at'.Nodup) (hmem : ∀ t, t ∈ at' ↔ t ∈ ts ∧ m.points[i] ∈ [t.1, t.2.1, t.2.2])
    (hsh : ∀ t ∈ at', Shaped δ t)
    (hsep : ∀ t ∈ at', ∀ t' ∈ at', t ≠ t' → ∀ n n', IsNormal (trueTriangle t) n → IsNormal (trueTriangle t') n' →
      2 * δ + 32 * (2 : ℝ)⁻¹ ^ F.prec < Spec.dist n n')
    (cs : List (Vec ℝ 3)) (hcs : List.Forall₂ (fun t c => IsNormal (trueTriangle t) c) at' cs)
    (S : ℝ) (hS : S = Spec.norm (fun j => (cs.map (· j)).sum)) (hS0 : 0 < S) (hk : (cs.length : ℝ) * (2 : ℝ)⁻¹ ^ F.prec ≤ 1)
    (hbig : 2 * (cs.length * (δ + 16 * (2 : ℝ)⁻¹ ^ F.prec) + 5 / 4 * ((2 : ℝ)⁻¹ ^ F.prec * (cs.length : ℝ) ^ 2)) ≤ S) :
    ∃ ns v, calcVertexNormals m = .ok ns ∧ ns[i]? = some v ∧
      Spec.dist (fun j => (v j).1) (fun j => (cs.map (· j)).sum / S)
        ≤ (2 * cs.length * δ + (40 * cs.length + 3 * (cs.length : ℝ) ^ 2) * (2 : ℝ)⁻¹ ^ F.prec) / S := by
  obtain ⟨ns, v, us, ds, h1, h2, h3, h4, h5, h6, h7⟩ := C111_vertex dbg M ts hM m hb hp hmin hδ0 hδ i hi
    fun t ht hpt => hsh t ((hmem t).2 ⟨ht, hpt⟩)
  refine ⟨ns, v, h1, h2, ?_⟩
  have huniq : ∀ t ∈ at', ∀ n, IsNormal (trueTriangle t) n → n = normalOf (trueTriangle t) := by
    intro t ht n hn
    refine (isNormal_iff ((nonDegenerate_iff _).2 ?_) n).1 hn
    intro h0
    have := (hsh t ht).pos
    rw [twiceArea_eq, h0] at this
    simp [Spec.norm] at this
  have hall : ∀ (vs : List (Vec (Fl F) 3 × Vec (Fl F) 3 × Vec (Fl F) 3)) (es : List (Vec ℝ 3)), (∀ t ∈ vs, t ∈ at') →
      List.Forall₂ (fun t c => IsNormal (trueTriangle t) c) vs es → es = vs.map fun t => normalOf (trueTriangle t) := by
    intro vs es hv hf
    induction hf with
    | nil => rfl
    | @cons t c vs es h _ ih =>
      rw [List.map_cons, ← ih fun t ht => hv t (List.mem_cons_of_mem _ ht), ← huniq t (hv t (by simp)) c h]
  have hus : ∀ t ∈ us, t ∈ at' := fun t ht => (hmem t).2 (h4 t ht)
  have e1 := hall us ds hus h5
  have e2 := hall at' cs (fun _ h => h) hcs
  have hnorm : ∀ t ∈ at', IsNormal (trueTriangle t) (normalOf (trueTriangle t)) := fun t ht => (used_normal_err hp hmin (hsh t ht)).1
  have hperm : us.Perm at' := by
    rw [List.perm_ext_iff_of_nodup h3 hat]
    refine fun t => ⟨hus t, fun ht => ?_⟩
    obtain ⟨c, hc, hcn⟩ := h6 t ((hmem t).1 ht).1 ((hmem t).1 ht).2
    rw [e1] at hc
    obtain ⟨t', ht', rfl⟩ := List.mem_map.1 hc
    by_contra hne
    have := hsep t' (hus t' ht') t ht (by rintro rfl; exact hne ht') _ _ (hnorm t' (hus t' ht')) (hnorm t ht)
    have := hcn _ (hnorm t ht)
    linarith
  have hp2 : ds.Perm cs := by rw [e1, e2]; exact hperm.map _
  have hsum : (fun j : Fin 3 => (ds.map (· j)).sum) = fun j => (cs.map (· j)).sum := by
    funext j; exact (hp2.map _).sum_eq
  have := h7 S (by rw [hsum]; exact hS) hS0 (by rw [hp2.length_eq]; exact hk) (by rw [hp2.length_eq]; exact hbig)
  rw [hp2.length_eq] at this
  simp only [congrFun hsum] at this
  exact this

section Examples
open Classical

theorem tri64 (a b c d e f g h i : ℤ) (ha : |a| < 2 ^ 53) (hb : |b| < 2 ^ 53) (hc : |c| < 2 ^ 53) (hd : |d| < 2 ^ 53) (he : |e| < 2 ^ 53)
    (hf : |f| < 2 ^ 53) (hg : |g| < 2 ^ 53) (hh : |h| < 2 ^ 53) (hi : |i| < 2 ^ 53) :
    trueTriangle (p64 a b c ha hb hc, p64 d e f hd he hf, p64 g h i hg hh hi)
      = (![(a : ℝ), (b : ℝ), (c : ℝ)], ![(d : ℝ), (e : ℝ), (f : ℝ)], ![(g : ℝ), (h : ℝ), (i : ℝ)]) := by
  rw [← p64_vals a b c ha hb hc, ← p64_vals d e f hd he hf, ← p64_vals g h i hg hh hi]; rfl

theorem cross_lit (a b c d e f g h i : ℝ) :
    cross (vsub (![d, e, f] : Vec ℝ 3) ![a, b, c]) (vsub ![g, h, i] ![d, e, f]) =
      ![(e - b) * (i - f) - (f - c) * (h - e), (f - c) * (g - d) - (d - a) * (i - f), (d - a) * (h - e) - (e - b) * (g - d)] := by
  funext j; fin_cases j <;> simp [cross, vsub]

theorem area_lit (a b c d e f g h i r : ℝ) (hr : 0 ≤ r)
    (hh : ((e - b) * (i - f) - (f - c) * (h - e)) ^ 2 + ((f - c) * (g - d) - (d - a) * (i - f)) ^ 2 + ((d - a) * (h - e) - (e - b) * (g - d)) ^ 2 = r ^ 2) :
    twiceArea (![a, b, c], ![d, e, f], ![g, h, i]) = r := by
  rw [twiceArea_eq, cross_lit]
  exact norm3 _ _ _ r hr hh

theorem sides_lit {a b c d e f g h i r s : ℝ} (hr : 0 ≤ r) (hs : 0 ≤ s) (h1 : (d - a) ^ 2 + (e - b) ^ 2 + (f - c) ^ 2 ≤ r ^ 2)
    (h2 : (g - d) ^ 2 + (h - e) ^ 2 + (i - f) ^ 2 ≤ s ^ 2) : sidesProduct (![a, b, c], ![d, e, f], ![g, h, i]) ≤ r * s := by
  have n : ∀ {x y z r : ℝ}, 0 ≤ r → x ^ 2 + y ^ 2 + z ^ 2 ≤ r ^ 2 → Spec.norm ![x, y, z] ≤ r := by
    intro x y z r hr h
    unfold Spec.norm
    rw [Fin.sum_univ_three]
    exact Real.sqrt_le_iff.2 ⟨hr, h⟩
  unfold sidesProduct
  refine mul_le_mul ?_ ?_ (norm_nonneg' _) hr
  · have e : (![d, e, f] : Fin 3 → ℝ) - ![a, b, c] = ![d - a, e - b, f - c] := by funext j; fin_cases j <;> rfl
    exact e ▸ n hr h1
  · have e : (![g, h, i] : Fin 3 → ℝ) - ![d, e, f] = ![g - d, h - e, i - f] := by funext j; fin_cases j <;> rfl
    exact e ▸ n hs h2

theorem normal_lit (a b c d e f g h i x y z r : ℝ) (hr : 0 < r)
    (hh : ((e - b) * (i - f) - (f - c) * (h - e)) ^ 2 + ((f - c) * (g - d) - (d - a) * (i - f)) ^ 2 + ((d - a) * (h - e) - (e - b) * (g - d)) ^ 2 = r ^ 2)
    (hx : (e - b) * (i - f) - (f - c) * (h - e) = r * x) (hy : (f - c) * (g - d) - (d - a) * (i - f) = r * y)
    (hz : (d - a) * (h - e) - (e - b) * (g - d) = r * z) (n : Vec ℝ 3) :
    IsNormal (![a, b, c], ![d, e, f], ![g, h, i]) n ↔ n = ![x, y, z] := by
  have hA := area_lit a b c d e f g h i r hr.le hh
  rw [isNormal_iff ((nonDegenerate_iff _).2 fun h0 => ?_)]
  · unfold normalOf
    rw [cross_lit, ← normalized_eq, norm3 _ _ _ r hr.le hh, hx, hy, hz]
    have : (fun k => (![r * x, r * y, r * z] : Vec ℝ 3) k / r) = ![x, y, z] := by
      funext k; fin_cases k <;> simp <;> field_simp
    rw [this]
  · rw [twiceArea_eq, h0] at hA
    simp [Spec.norm] at hA
    linarith

/-- A tetrahedron in `double`. -/
noncomputable def tetra64 : List (Vec (Fl binary64) 3 × Vec (Fl binary64) 3 × Vec (Fl binary64) 3) :=
  [(p64 20 0 0, p64 0 15 0, p64 0 0 5), (p64 0 15 0, p64 0 0 0, p64 0 0 5), (p64 20 0 0, p64 0 0 0, p64 0 15 0), (p64 0 0 5, p64 0 0 0, p64 20 0 0)]

theorem resolved64 {a b c a' b' c' : ℤ} (ha : |a| < 2 ^ 53) (hb : |b| < 2 ^ 53) (hc : |c| < 2 ^ 53) (ha' : |a'| < 2 ^ 53) (hb' : |b'| < 2 ^ 53)
    (hc' : |c'| < 2 ^ 53) (hne : p64 a b c ha hb hc ≠ p64 a' b' c' ha' hb' hc') :
    ∃ i, Resolved binary64.emin (p64 a b c ha hb hc i).1 (p64 a' b' c' ha' hb' hc' i).1 := by
  have hone : ∀ {x y : ℤ}, x ≠ y → Resolved binary64.emin x y := by
    intro x y hxy
    refine ⟨by exact_mod_cast hxy, fun k hk => ?_⟩
    have h1 : (1 : ℝ) ≤ |(x : ℝ) - y| := by exact_mod_cast Int.one_le_abs (sub_ne_zero.2 hxy)
    refine le_trans ?_ h1
    cases hk
    rw [show (1 : ℝ) = 2 ^ (0 : ℤ) by norm_num]
    exact zpow_le_zpow_right₀ (by norm_num) (by norm_num)
  by_cases h0 : a = a'
  · by_cases h1 : b = b'
    · by_cases h2 : c = c'
      · exact absurd (by subst h0 h1 h2; rfl) hne
      · exact ⟨2, hone h2⟩
    · exact ⟨1, hone h1⟩
  · exact ⟨0, hone h0⟩

theorem apart64 (ts : List (Vec (Fl binary64) 3 × Vec (Fl binary64) 3 × Vec (Fl binary64) 3))
    (h : ∀ x ∈ corners ts, ∃ a b c : ℤ, ∃ ha hb hc, x = p64 a b c ha hb hc) : Apart (corners ts) := by
  refine apart_fl fun u hu v hv hne => ?_
  obtain ⟨a, b, c, ha, hb, hc, rfl⟩ := h u hu
  obtain ⟨a', b', c', ha', hb', hc', rfl⟩ := h v hv
  exact resolved64 _ _ _ _ _ _ hne

theorem tetra64_apart : Apart (corners tetra64) := by
  refine apart64 _ fun x hx => ?_
  simp only [tetra64, corners, List.flatMap_cons, List.flatMap_nil, List.mem_append, List.mem_cons, List.not_mem_nil, or_false] at hx
  rcases hx with (rfl | rfl | rfl) | (rfl | rfl | rfl) | (rfl | rfl | rfl) | (rfl | rfl | rfl) <;> exact ⟨_, _, _, _, _, _, rfl⟩

/-- The slanted facet of the tetrahedron with corners (0, 0, 0), (20, 0, 0), (0, 15, 0), (0, 0, 5): its computed normal is (3, 4, 12) / 13 up to 1e-13. -/
example : ∃ m f n', buildMesh true (2 ^ 64) 64 tetra64 = .ok m ∧ vecGet m.facets 0 = .ok f ∧ calcFacetNormal m f = .ok n' ∧
    Spec.dist (fun i => (n' i).1) ![3 / 13, 4 / 13, 12 / 13] ≤ 1 / 10 ^ 13 := by
  obtain ⟨m, hm, hb⟩ := C48_build_succeeds true (2 ^ 64) 64 tetra64 (by simp [tetra64]) tetra64_apart
  have e := tri64 20 0 0 0 15 0 0 0 5 (by norm_num) (by norm_num) (by norm_num) (by norm_num) (by norm_num) (by norm_num) (by norm_num) (by norm_num)
    (by norm_num)
  have hA : twiceArea (trueTriangle (tetra64[0]'(by simp [tetra64]))) = 325 := by
    show twiceArea (trueTriangle (p64 20 0 0, p64 0 15 0, p64 0 0 5)) = 325
    rw [e]; push_cast; exact area_lit _ _ _ _ _ _ _ _ _ _ (by norm_num) (by norm_num)
  have hP : sidesProduct (trueTriangle (tetra64[0]'(by simp [tetra64]))) ≤ 25 * 16 := by
    show sidesProduct (trueTriangle (p64 20 0 0, p64 0 15 0, p64 0 0 5)) ≤ _
    rw [e]; push_cast; exact sides_lit (by norm_num) (by norm_num) (by norm_num) (by norm_num)
  have hu := unit64'
  have hu0 := binary64.unit_pos
  change binary64.unit ≤ _ at hu
  obtain ⟨f, n', n, h1, h2, h3, h4, -⟩ := C111_facet true (2 ^ 64) tetra64 (by simp [tetra64]) m hb (by show 9 ≤ 53; norm_num) 0 (by simp [tetra64])
    (by rw [hA]; norm_num) (by rw [hA]; exact small64' (by norm_num))
    (by
      rw [hA]
      change 16 * (binary64.unit * _) ≤ _
      have := mul_le_mul_of_nonneg_left hP hu0.le
      norm_num at *
      linarith)
  refine ⟨m, f, n', hm, h1, h2, ?_⟩
  have hn : n = ![3 / 13, 4 / 13, 12 / 13] := by
    change IsNormal (trueTriangle (p64 20 0 0, p64 0 15 0, p64 0 0 5)) n at h3
    rw [e] at h3
    push_cast at h3
    exact (normal_lit _ _ _ _ _ _ _ _ _ _ _ _ 325 (by norm_num) (by norm_num) (by norm_num) (by norm_num) (by norm_num) n).1 h3
  rw [hn, hA] at h4
  change _ ≤ 21 * binary64.unit * _ at h4
  refine h4.trans ?_
  have : sidesProduct (trueTriangle (tetra64[0]'(by simp [tetra64]))) / 325 ≤ 400 / 325 := by
    rw [div_le_div_iff_of_pos_right (by norm_num)]; linarith
  have := mul_le_mul_of_nonneg_left this hu0.le
  norm_num at *
  linarith

/-- The three facets at the right-angled corner. -/
noncomputable def corner64 : List (Vec (Fl binary64) 3 × Vec (Fl binary64) 3 × Vec (Fl binary64) 3) :=
  [(p64 0 15 0, p64 0 0 0, p64 0 0 5), (p64 20 0 0, p64 0 0 0, p64 0 15 0), (p64 0 0 5, p64 0 0 0, p64 20 0 0)]

theorem shaped64 {t : Vec (Fl binary64) 3 × Vec (Fl binary64) 3 × Vec (Fl binary64) 3} {a : ℝ} (hA : twiceArea (trueTriangle t) = a) (ha : 2 ≤ a)
    (hP : sidesProduct (trueTriangle t) ≤ a) : Shaped (1 / 10 ^ 13) t := by
  have hu := unit64'
  have hu0 := binary64.unit_pos
  change binary64.unit ≤ _ at hu
  refine ⟨by rw [hA]; linarith, fun k hk => ?_, ?_, ?_⟩
  · rw [hA]; exact (small64' (by linarith) k hk).2
  · change 16 * (binary64.unit * _) ≤ _
    rw [hA]
    have h1 := mul_le_mul_of_nonneg_left hP hu0.le
    have h2 := mul_le_mul_of_nonneg_right hu (show 0 ≤ a by linarith)
    norm_num at *
    linarith
  · change 21 * binary64.unit * _ ≤ _
    rw [hA]
    have h1 : sidesProduct (trueTriangle t) / a ≤ 1 := by rw [div_le_one (by linarith)]; exact hP
    have := mul_le_mul_of_nonneg_left h1 hu0.le
    norm_num at *
    linarith

theorem corner64_shaped : ∀ t ∈ corner64, Shaped (1 / 10 ^ 13) t := by
  intro t ht
  simp only [corner64, List.mem_cons, List.not_mem_nil, or_false] at ht
  rcases ht with rfl | rfl | rfl
  · refine shaped64 (a := 75) ?_ (by norm_num) ?_ <;> rw [tri64] <;> push_cast
    · exact area_lit _ _ _ _ _ _ _ _ _ _ (by norm_num) (by norm_num)
    · exact (sides_lit (r := 15) (s := 5) (by norm_num) (by norm_num) (by norm_num) (by norm_num)).trans (by norm_num)
  · refine shaped64 (a := 300) ?_ (by norm_num) ?_ <;> rw [tri64] <;> push_cast
    · exact area_lit _ _ _ _ _ _ _ _ _ _ (by norm_num) (by norm_num)
    · exact (sides_lit (r := 20) (s := 15) (by norm_num) (by norm_num) (by norm_num) (by norm_num)).trans (by norm_num)
  · refine shaped64 (a := 100) ?_ (by norm_num) ?_ <;> rw [tri64] <;> push_cast
    · exact area_lit _ _ _ _ _ _ _ _ _ _ (by norm_num) (by norm_num)
    · exact (sides_lit (r := 5) (s := 20) (by norm_num) (by norm_num) (by norm_num) (by norm_num)).trans (by norm_num)

theorem corner64_normals (n : Vec ℝ 3) :
    (IsNormal (trueTriangle (p64 0 15 0, p64 0 0 0, p64 0 0 5)) n ↔ n = ![-1, 0, 0]) ∧
    (IsNormal (trueTriangle (p64 20 0 0, p64 0 0 0, p64 0 15 0)) n ↔ n = ![0, 0, -1]) ∧
    (IsNormal (trueTriangle (p64 0 0 5, p64 0 0 0, p64 20 0 0)) n ↔ n = ![0, -1, 0]) := by
  refine ⟨?_, ?_, ?_⟩ <;> rw [tri64] <;> push_cast
  · exact normal_lit _ _ _ _ _ _ _ _ _ _ _ _ 75 (by norm_num) (by norm_num) (by norm_num) (by norm_num) (by norm_num) n
  · exact normal_lit _ _ _ _ _ _ _ _ _ _ _ _ 300 (by norm_num) (by norm_num) (by norm_num) (by norm_num) (by norm_num) n
  · exact normal_lit _ _ _ _ _ _ _ _ _ _ _ _ 100 (by norm_num) (by norm_num) (by norm_num) (by norm_num) (by norm_num) n

theorem p64_inj {a b c a' b' c' : ℤ} {ha : |a| < 2 ^ 53} {hb : |b| < 2 ^ 53} {hc : |c| < 2 ^ 53} {ha' : |a'| < 2 ^ 53} {hb' : |b'| < 2 ^ 53}
    {hc' : |c'| < 2 ^ 53} : p64 a b c ha hb hc = p64 a' b' c' ha' hb' hc' ↔ a = a' ∧ b = b' ∧ c = c' := by
  constructor
  · intro h
    have h0 : (a : ℝ) = a' := congrArg Subtype.val (congrFun h 0)
    have h1 : (b : ℝ) = b' := congrArg Subtype.val (congrFun h 1)
    have h2 : (c : ℝ) = c' := congrArg Subtype.val (congrFun h 2)
    exact ⟨by exact_mod_cast h0, by exact_mod_cast h1, by exact_mod_cast h2⟩
  · rintro ⟨rfl, rfl, rfl⟩; rfl

theorem tetra64_at (t : Vec (Fl binary64) 3 × Vec (Fl binary64) 3 × Vec (Fl binary64) 3) :
    t ∈ corner64 ↔ t ∈ tetra64 ∧ p64 0 0 0 ∈ [t.1, t.2.1, t.2.2] := by
  simp only [corner64, tetra64, List.mem_cons, List.not_mem_nil, or_false]
  constructor
  · rintro (rfl | rfl | rfl) <;> simp
  · rintro ⟨rfl | rfl | rfl | rfl, h⟩
    · simp [p64_inj] at h
    · simp
    · simp
    · simp

theorem min64 : ∀ k, binary64.emin = some k → k ≤ -4 * (binary64.prec : ℤ) := by
  intro k hk; cases hk; show (-1074 : ℤ) ≤ -4 * (53 : ℕ); norm_num

/-- The corner (0, 0, 0) of the tetrahedron: the computed vertex normal is (-1, -1, -1) / √3 up to 1e-12. -/
example : ∃ m ns v, ∃ i : Nat, buildMesh true (2 ^ 64) 64 tetra64 = .ok m ∧ m.points[i]? = some (p64 0 0 0) ∧ calcVertexNormals m = .ok ns ∧
    ns[i]? = some v ∧ Spec.dist (fun j => (v j).1) (fun j => (![-1, -1, -1] : Vec ℝ 3) j / Real.sqrt 3) ≤ 1 / 10 ^ 12 := by
  obtain ⟨m, hm, hb⟩ := C48_build_succeeds true (2 ^ 64) 64 tetra64 (by simp [tetra64]) tetra64_apart
  have hmem : p64 0 0 0 ∈ m.points := by
    rw [(C43_vertices true _ tetra64 (by simp [tetra64]) m hb).1]
    simp [corners, tetra64, List.mem_eraseDups]
  obtain ⟨i, hi, hO⟩ := List.mem_iff_getElem.1 hmem
  have hu := unit64'
  have hu0 := binary64.unit_pos
  change binary64.unit ≤ _ at hu
  have hN := corner64_normals
  have hs3 : 1.7 < Real.sqrt 3 := (Real.lt_sqrt (by norm_num)).2 (by norm_num)
  have hsum : (fun j : Fin 3 => (([![-1, 0, 0], ![0, 0, -1], ![0, -1, 0]] : List (Vec ℝ 3)).map (· j)).sum) = ![-1, -1, -1] := by
    funext j; fin_cases j <;> simp
  have hS : Real.sqrt 3 = Spec.norm (fun j : Fin 3 => (([![-1, 0, 0], ![0, 0, -1], ![0, -1, 0]] : List (Vec ℝ 3)).map (· j)).sum) := by
    rw [hsum]; unfold Spec.norm; rw [Fin.sum_univ_three]
    show _ = Real.sqrt ((-1) ^ 2 + (-1) ^ 2 + (-1) ^ 2)
    norm_num
  have d1 : 1 ≤ Spec.dist ![-1, 0, 0] ![0, 0, -1] := by
    have := coord_le_norm (fun i => (![-1, 0, 0] : Vec ℝ 3) i - (![0, 0, -1] : Vec ℝ 3) i) 0
    change |(-1 : ℝ) - 0| ≤ _ at this
    norm_num at this
    exact this
  have d2 : 1 ≤ Spec.dist ![-1, 0, 0] ![0, -1, 0] := by
    have := coord_le_norm (fun i => (![-1, 0, 0] : Vec ℝ 3) i - (![0, -1, 0] : Vec ℝ 3) i) 0
    change |(-1 : ℝ) - 0| ≤ _ at this
    norm_num at this
    exact this
  have d3 : 1 ≤ Spec.dist ![0, 0, -1] ![0, -1, 0] := by
    have := coord_le_norm (fun i => (![0, 0, -1] : Vec ℝ 3) i - (![0, -1, 0] : Vec ℝ 3) i) 2
    change |(-1 : ℝ) - 0| ≤ _ at this
    norm_num at this
    exact this
  have hsm : 2 * (1 / 10 ^ 13) + 32 * (2 : ℝ)⁻¹ ^ binary64.prec < 1 := by
    change _ + 32 * binary64.unit < 1
    norm_num at *
    linarith
  obtain ⟨ns, v, h1, h2, h3⟩ := C111_vertex_distinct true (2 ^ 64) tetra64 (by simp [tetra64]) m hb (by show 9 ≤ 53; norm_num) min64
    (δ := 1 / 10 ^ 13) (by norm_num) (by norm_num) i hi corner64 (by simp [corner64, p64_inj]) (by rw [hO]; exact tetra64_at)
    corner64_shaped (by
      intro t ht t' ht' hne n n' hn hn'
      simp only [corner64, List.mem_cons, List.not_mem_nil, or_false] at ht ht'
      refine lt_of_lt_of_le hsm ?_
      rcases ht with rfl | rfl | rfl <;> rcases ht' with rfl | rfl | rfl
      · exact absurd rfl hne
      · rw [(hN n).1.1 hn, (hN n').2.1.1 hn']; exact d1
      · rw [(hN n).1.1 hn, (hN n').2.2.1 hn']; exact d2
      · rw [(hN n).2.1.1 hn, (hN n').1.1 hn', dist_comm']; exact d1
      · exact absurd rfl hne
      · rw [(hN n).2.1.1 hn, (hN n').2.2.1 hn']; exact d3
      · rw [(hN n).2.2.1 hn, (hN n').1.1 hn', dist_comm']; exact d2
      · rw [(hN n).2.2.1 hn, (hN n').2.1.1 hn', dist_comm']; exact d3
      · exact absurd rfl hne)
    [![-1, 0, 0], ![0, 0, -1], ![0, -1, 0]] (.cons ((hN _).1.2 rfl) (.cons ((hN _).2.1.2 rfl) (.cons ((hN _).2.2.2 rfl) .nil)))
    (Real.sqrt 3) hS (by linarith)
    (by change ((3 : ℕ) : ℝ) * binary64.unit ≤ 1; norm_num at *; linarith)
    (by
      change 2 * (((3 : ℕ) : ℝ) * (1 / 10 ^ 13 + 16 * binary64.unit) + 5 / 4 * (binary64.unit * ((3 : ℕ) : ℝ) ^ 2)) ≤ _
      norm_num at *
      linarith)
  refine ⟨m, ns, v, i, hm, by rw [List.getElem?_eq_getElem hi, hO], h1, h2, ?_⟩
  simp only [congrFun hsum] at h3
  refine h3.trans ?_
  change (2 * ((3 : ℕ) : ℝ) * (1 / 10 ^ 13) + (40 * ((3 : ℕ) : ℝ) + 3 * ((3 : ℕ) : ℝ) ^ 2) * binary64.unit) / Real.sqrt 3 ≤ _
  rw [div_le_iff₀ (by linarith)]
  norm_num at *
  linarith

/-- The same vertex without knowing which normals differ: some of the three facets at the corner are added up. -/
example : ∃ m ns v us, ∃ i : Nat, buildMesh true (2 ^ 64) 64 tetra64 = .ok m ∧ m.points[i]? = some (p64 0 0 0) ∧ calcVertexNormals m = .ok ns ∧
    ns[i]? = some v ∧ us.Nodup ∧ us ⊆ corner64 := by
  obtain ⟨m, hm, hb⟩ := C48_build_succeeds true (2 ^ 64) 64 tetra64 (by simp [tetra64]) tetra64_apart
  have hmem : p64 0 0 0 ∈ m.points := by
    rw [(C43_vertices true _ tetra64 (by simp [tetra64]) m hb).1]
    simp [corners, tetra64, List.mem_eraseDups]
  obtain ⟨i, hi, hO⟩ := List.mem_iff_getElem.1 hmem
  obtain ⟨ns, v, us, -, h1, h2, h3, h4, -⟩ := C111_vertex true (2 ^ 64) tetra64 (by simp [tetra64]) m hb (by show 9 ≤ 53; norm_num) min64
    (δ := 1 / 10 ^ 13) (by norm_num) (by norm_num) i hi (by
      intro t ht hp
      rw [hO] at hp
      exact corner64_shaped t ((tetra64_at t).2 ⟨ht, hp⟩))
  rw [hO] at h4
  exact ⟨m, ns, v, us, i, hm, by rw [List.getElem?_eq_getElem hi, hO], h1, h2, h3, fun t ht => (tetra64_at t).2 (h4 t ht)⟩
end Examples
end Verif
