import Verif.Props.FloatTransform
import Verif.Props.FloatMeasure
import Verif.Props.FloatCrossGrid

set_option linter.unusedSectionVars false
set_option linter.unusedSimpArgs false

/-
C158: transformations and projections of integer data in floating point arithmetic.
-/
namespace Verif
open Spec Matrix

section
variable {F : FloatFormat}

/-- A sum of products that are multiples of `2^g` is not rounded, if the absolute values add up to `2^prec` such units at most. -/
theorem dot_grid {D : ℕ} (u v : Vec (Fl F) D) {g : ℤ} (n : Fin D → ℤ) (hn : ∀ i, (u i).1 * (v i).1 = n i * 2 ^ g) (hs : ∑ i, |n i| ≤ 2 ^ F.prec)
    (hg : ∀ k, F.emin = some k → k ≤ g) : (dot u v).1 = ((∑ i, n i : ℤ) : ℝ) * 2 ^ g := by
  unfold dot
  induction D with
  | zero => simp
  | succ D ih =>
    rw [Fin.foldl_succ_last, Fl.val_add, Fl.val_mul]
    rw [Fin.sum_univ_castSucc] at hs ⊢
    have h0 : 0 ≤ ∑ i : Fin D, |n i.castSucc| := Finset.sum_nonneg fun i _ => abs_nonneg _
    have h1 := abs_nonneg (n (Fin.last D))
    rw [ih (fun i => u i.castSucc) (fun i => v i.castSucc) (fun i => n i.castSucc) (fun i => hn _) (by linarith),
      rnd_multiple (n (Fin.last D)) g (hn _) (by linarith) hg, hn]
    refine (rnd_multiple (∑ i : Fin D, n i.castSucc + n (Fin.last D)) g (by push_cast; ring) ?_ hg).trans (by push_cast; ring)
    refine (abs_add_le _ _).trans (le_trans ?_ hs)
    have := Finset.abs_sum_le_sum_abs (fun i : Fin D => n i.castSucc) Finset.univ
    linarith

/-- One row of a transformation. -/
theorem row_grid (row : Vec (Fl F) 4) (v : Vec (Fl F) 3) {g : ℤ} (n : Fin 3 → ℤ) (t : ℤ) (hn : ∀ j, (row j.castSucc).1 * (v j).1 = n j * 2 ^ g)
    (ht : (row 3).1 = t * 2 ^ g) (hs : ∑ j, |n j| + |t| ≤ 2 ^ F.prec) (hg : ∀ k, F.emin = some k → k ≤ g) :
    (dot row (toHvec v)).1 = ((∑ j, n j + t : ℤ) : ℝ) * 2 ^ g := by
  have h := dot_grid row (toHvec v) (g := g) (Fin.snoc (α := fun _ => ℤ) n t) ?_ ?_ hg
  · rw [h, Fin.sum_univ_castSucc]
    simp only [Fin.snoc_castSucc, Fin.snoc_last]
  · intro i
    refine Fin.lastCases ?_ (fun j => ?_) i
    · have h1 : (toHvec v (Fin.last 3)).1 = 1 := rfl
      rw [h1, mul_one, Fin.snoc_last]
      exact ht
    · have h1 : toHvec v j.castSucc = v j := by fin_cases j <;> rfl
      rw [h1, Fin.snoc_castSucc]
      exact hn j
  · rw [Fin.sum_univ_castSucc]
    simpa only [Fin.snoc_castSucc, Fin.snoc_last] using hs

/-- **C158** A point is transformed without any rounding error, if all products that occur, and the translation, are integer multiples of one
power of two `2^g` and their absolute values add up to at most `2^prec` times this unit (`2^53` for `double`). -/
theorem C158_point (v : Vec (Fl F) 3) (m : HMat (Fl F)) {A : Matrix (Fin 3) (Fin 3) ℝ} {b : Vec ℝ 3} (hm : Describes m.vals A b) (g : ℤ)
    (hg : ∀ k, F.emin = some k → k ≤ g) (hA : ∀ i j, ∃ n : ℤ, A i j * (v j).1 = n * (2 : ℝ) ^ g) (hb : ∀ i, ∃ n : ℤ, b i = n * (2 : ℝ) ^ g)
    (hs : ∀ i, ∑ j, |A i j * (v j).1| + |b i| ≤ 2 ^ F.prec * (2 : ℝ) ^ g) :
    Fl.toReal (transformVec v m) = affine A b (Fl.toReal v) := by
  choose n hn using hA
  choose t ht using hb
  have hp := two_zpow_pos g
  funext i
  have h1 : ∀ j : Fin 3, (m i.castSucc j.castSucc).1 = A i j := hm.1 i
  have h2 : (m i.castSucc 3).1 = b i := hm.2.1 i
  have hsum : ∑ j, |n i j| + |t i| ≤ 2 ^ F.prec := by
    have h := hs i
    simp only [hn, ht, abs_mul, abs_of_pos hp] at h
    rw [← Finset.sum_mul, ← add_mul] at h
    exact_mod_cast le_of_mul_le_mul_right h hp
  have h := row_grid (m i.castSucc) v (n i) (t i) (fun j => by rw [h1, hn]) (by rw [h2, ht]) hsum hg
  show (dot (m i.castSucc) (toHvec v)).1 = _
  rw [h]
  simp only [affine, Pi.add_apply, mulVec, dotProduct, Fl.toReal]
  rw [Finset.sum_congr rfl fun j _ => hn i j, ht, ← Finset.sum_mul]
  push_cast; ring

/-- **C158** The bound is sharp in every format: a shift by one moves a point with coordinates `2^prec` to a place that is not representable. -/
theorem C158_sharp (F : FloatFormat) : ∃ (v : Vec (Fl F) 3) (m : HMat (Fl F)), Describes m.vals 1 1 ∧ Fl.toReal v = (fun _ => 2 ^ F.prec) ∧
    ∀ i, Fl.toReal (transformVec v m) i ≠ affine 1 1 (Fl.toReal v) i := by
  have hrep : Representable F.prec F.emin ((2 : ℝ) ^ F.prec) := by
    rw [← zpow_natCast]
    apply representable_two_pow F.one_lt_prec
    intro k hk
    have := F.emin_le k hk
    omega
  refine ⟨fun _ => ⟨_, hrep⟩, fun i j => if i = j ∨ j = 3 then 1 else 0, ⟨fun i j => ?_, fun i => ?_, fun j => ?_, ?_⟩, rfl, fun i h => ?_⟩
  · fin_cases i <;> fin_cases j <;> simp [HMat.vals]
  · simp [HMat.vals]
  · fin_cases j <;> simp [HMat.vals]
  · simp [HMat.vals]
  · -- the exact image has `prec + 1` digits and is odd
    have h2 : Representable F.prec F.emin ((2 : ℝ) ^ F.prec + 1) := by
      rw [show ((2 : ℝ) ^ F.prec + 1) = affine 1 1 (fun _ => (2 : ℝ) ^ F.prec) i by simp [affine]]
      rw [show (affine 1 1 (fun _ => (2 : ℝ) ^ F.prec) i) = _ from h.symm]
      exact Subtype.property _
    obtain ⟨n, e, hn, -, he⟩ := h2
    have hnR : |(n : ℝ)| < 2 ^ F.prec := by exact_mod_cast hn
    rcases le_or_gt e 0 with he0 | he0
    · have h3 : (2 : ℝ) ^ e ≤ 1 := zpow_le_one_of_nonpos₀ (by norm_num) he0
      have h4 := two_zpow_pos e
      have h5 : (n : ℝ) * 2 ^ e ≤ |(n : ℝ)| * 1 := (mul_le_mul_of_nonneg_right (le_abs_self _) h4.le).trans (mul_le_mul_of_nonneg_left h3 (abs_nonneg _))
      linarith
    · obtain ⟨k, rfl⟩ : ∃ k : ℕ, e = k + 1 := ⟨(e - 1).toNat, by omega⟩
      have h3 : (2 : ℤ) ^ F.prec + 1 = n * 2 ^ (k + 1) := by
        have : (((2 : ℤ) ^ F.prec + 1 : ℤ) : ℝ) = ((n * 2 ^ (k + 1) : ℤ) : ℝ) := by
          push_cast
          rw [he]
          norm_cast
        exact_mod_cast this
      obtain ⟨q, hq⟩ : ∃ q, F.prec = q + 1 := ⟨F.prec - 1, by have := F.one_lt_prec; omega⟩
      rw [hq, pow_succ, pow_succ] at h3
      have : (1 : ℤ) = 2 * (n * 2 ^ k - 2 ^ q) := by linarith
      omega

/-- **C158** Transforming by the inverse gives back exactly the point that was transformed: both maps without rounding, as above. -/
theorem C158_round_trip (v : Vec (Fl F) 3) (m m' : HMat (Fl F)) {A A' : Matrix (Fin 3) (Fin 3) ℝ} {b b' : Vec ℝ 3} (hm : Describes m.vals A b)
    (hm' : Describes m'.vals A' b') (hinv : A' * A = 1) (hb0 : A' *ᵥ b + b' = 0) (g g' : ℤ) (hg : ∀ k, F.emin = some k → k ≤ g ∧ k ≤ g')
    (hA : ∀ i j, ∃ n : ℤ, A i j * (v j).1 = n * (2 : ℝ) ^ g) (hb : ∀ i, ∃ n : ℤ, b i = n * (2 : ℝ) ^ g)
    (hs : ∀ i, ∑ j, |A i j * (v j).1| + |b i| ≤ 2 ^ F.prec * (2 : ℝ) ^ g)
    (hA' : ∀ i j, ∃ n : ℤ, A' i j * affine A b (Fl.toReal v) j = n * (2 : ℝ) ^ g') (hb' : ∀ i, ∃ n : ℤ, b' i = n * (2 : ℝ) ^ g')
    (hs' : ∀ i, ∑ j, |A' i j * affine A b (Fl.toReal v) j| + |b' i| ≤ 2 ^ F.prec * (2 : ℝ) ^ g') :
    transformVec (transformVec v m) m' = v := by
  have h1 := C158_point v m hm g (fun k hk => (hg k hk).1) hA hb hs
  have hv : ∀ j, (transformVec v m j).1 = affine A b (Fl.toReal v) j := fun j => congrFun h1 j
  have h2 := C158_point (transformVec v m) m' hm' g' (fun k hk => (hg k hk).2) (fun i j => by rw [hv]; exact hA' i j) hb'
    (fun i => by simp only [hv]; exact hs' i)
  rw [h1] at h2
  have h3 : affine A' b' (affine A b (Fl.toReal v)) = Fl.toReal v := by
    unfold affine
    rw [mulVec_add, mulVec_mulVec, hinv, one_mulVec, add_assoc, hb0, add_zero]
  rw [h3] at h2
  funext i
  exact Fl.ext (congrFun h2 i)

/-- **C158** One transformation after the other and the product of the matrices give the same point bit for bit, if matrices and point have integer entries and
`4 M N (3 V + 1) ≤ 2^prec` for bounds `M`, `N ≥ 1` and `V` of the entries. -/
theorem C158_compose (v : Vec (Fl F) 3) (m n : HMat (Fl F)) {a c : Fin 3 → Fin 3 → ℤ} {b d x : Fin 3 → ℤ}
    (hm : Describes m.vals (Matrix.of fun i j => (a i j : ℝ)) fun i => (b i : ℝ)) (hn : Describes n.vals (Matrix.of fun i j => (c i j : ℝ)) fun i => (d i : ℝ))
    (hv : ∀ j, (v j).1 = x j) (M N V : ℤ) (hN1 : 1 ≤ N) (hM : ∀ i j, |a i j| ≤ M ∧ |b i| ≤ M) (hN : ∀ i j, |c i j| ≤ N ∧ |d i| ≤ N) (hV : ∀ j, |x j| ≤ V)
    (hs : 4 * M * N * (3 * V + 1) ≤ 2 ^ F.prec) :
    transformVec v (hmatMul m n) = transformVec (transformVec v n) m := by
  have hM0 : 0 ≤ M := (abs_nonneg _).trans (hM 0 0).1
  have hV0 : 0 ≤ V := (abs_nonneg _).trans (hV 0)
  have hg : ∀ k, F.emin = some k → k ≤ 0 := F.emin_le
  have hMN : 0 ≤ M * N := mul_nonneg hM0 (by linarith)
  have hMNV : 0 ≤ M * N * V := mul_nonneg hMN hV0
  rcases hM0.eq_or_lt with hM00 | hMpos
  · -- all entries of `m` are zero
    have ha : ∀ i j, a i j = 0 := fun i j => abs_nonpos_iff.1 (by rw [hM00]; exact (hM i j).1)
    have hb : ∀ i, b i = 0 := fun i => abs_nonpos_iff.1 (by rw [hM00]; exact (hM i 0).2)
    have hm1 : ∀ (i : Fin 3) (j : Fin 4), m i.castSucc j = 0 := fun i j => by
      apply Fl.ext
      refine Fin.lastCases ?_ (fun j => ?_) j
      · have h : (m i.castSucc 3).1 = b i := hm.2.1 i
        rw [hb, Int.cast_zero] at h
        exact h
      · have h : (m i.castSucc j.castSucc).1 = a i j := hm.1 i j
        rw [ha, Int.cast_zero] at h
        exact h
    have hz : ∀ (i : Fin 3) (w : Vec (Fl F) 4), dot (m i.castSucc) w = 0 := fun i w => by
      apply Fl.ext
      rw [dot_grid _ w (g := 0) 0 (fun j => by rw [hm1]; simp) (by simp) hg]
      simp
    have hz' : ∀ (i : Fin 3) (w : Vec (Fl F) 4), dot (hmatMul m n i.castSucc) w = 0 := fun i w => by
      apply Fl.ext
      rw [dot_grid _ w (g := 0) 0 (fun j => by simp [hmatMul, hz]) (by simp) hg]
      simp
    funext i
    show dot (hmatMul m n i.castSucc) (toHvec v) = dot (m i.castSucc) (toHvec (transformVec v n))
    rw [hz, hz']
  have hbig : ∀ y : ℤ, y ≤ 4 * M * N * (3 * V + 1) → y ≤ 2 ^ F.prec := fun y hy => hy.trans hs
  have hprod : ∀ {p q P Q : ℤ}, |p| ≤ P → |q| ≤ Q → |p * q| ≤ P * Q := fun hp hq => abs_mul_le' hp hq
  have hNV : 0 ≤ N * V := mul_nonneg (by linarith) hV0
  -- the point after the first map
  have hy : ∀ i, (transformVec v n i).1 = ((∑ j, c i j * x j + d i : ℤ) : ℝ) := fun i => by
    have h := row_grid (n i.castSucc) v (g := 0) (fun j => c i j * x j) (d i) (fun j => by
      have : (n i.castSucc j.castSucc).1 = c i j := hn.1 i j
      rw [this, hv]; push_cast; simp) (by have : (n i.castSucc 3).1 = d i := hn.2.1 i; rw [this]; simp) (hbig _ (by
        simp only [Fin.sum_univ_three]
        have h0 := hprod (hN i 0).1 (hV 0)
        have h1 := hprod (hN i 1).1 (hV 1)
        have h2 := hprod (hN i 2).1 (hV 2)
        have h3 := (hN i 0).2
        nlinarith)) hg
    show (dot (n i.castSucc) (toHvec v)).1 = _
    rw [h]; simp
  have hyb : ∀ i, |∑ j, c i j * x j + d i| ≤ N * (3 * V + 1) := fun i => by
    simp only [Fin.sum_univ_three]
    have h0 := hprod (hN i 0).1 (hV 0)
    have h1 := hprod (hN i 1).1 (hV 1)
    have h2 := hprod (hN i 2).1 (hV 2)
    have h3 := (hN i 0).2
    refine (abs_add_le _ _).trans ?_
    have := abs_add_three (c i 0 * x 0) (c i 1 * x 1) (c i 2 * x 2)
    linarith
  have hright : ∀ i, (transformVec (transformVec v n) m i).1 = ((∑ k, a i k * (∑ j, c k j * x j + d k) + b i : ℤ) : ℝ) := fun i => by
    have h := row_grid (m i.castSucc) (transformVec v n) (g := 0) (fun k => a i k * (∑ j, c k j * x j + d k)) (b i) (fun k => by
      have : (m i.castSucc k.castSucc).1 = a i k := hm.1 i k
      rw [this, hy]; push_cast; simp) (by have : (m i.castSucc 3).1 = b i := hm.2.1 i; rw [this]; simp) (hbig _ (by
        rw [Fin.sum_univ_three]
        have h0 := hprod (hM i 0).1 (hyb 0)
        have h1 := hprod (hM i 1).1 (hyb 1)
        have h2 := hprod (hM i 2).1 (hyb 2)
        have h3 := (hM i 0).2
        nlinarith)) hg
    show (dot (m i.castSucc) (toHvec (transformVec v n))).1 = _
    rw [h]; simp
  -- the product of the matrices
  have hp1 : ∀ i j : Fin 3, (hmatMul m n i.castSucc j.castSucc).1 = ((∑ k, a i k * c k j : ℤ) : ℝ) := fun i j => by
    have h := dot_grid (m i.castSucc) (fun k => n k j.castSucc) (g := 0) (Fin.snoc (α := fun _ => ℤ) (fun k => a i k * c k j) 0) (fun k => by
      refine Fin.lastCases ?_ (fun k => ?_) k
      · have : (n 3 j.castSucc).1 = 0 := hn.2.2.1 j
        rw [Fin.snoc_last]
        show (m i.castSucc 3).1 * (n 3 j.castSucc).1 = _
        rw [this]; simp
      · rw [Fin.snoc_castSucc]
        have h1 : (m i.castSucc k.castSucc).1 = a i k := hm.1 i k
        have h2 : (n k.castSucc j.castSucc).1 = c k j := hn.1 k j
        rw [h1, h2]; push_cast; simp) (hbig _ (by
          rw [Fin.sum_univ_castSucc]
          simp only [Fin.snoc_castSucc, Fin.snoc_last, abs_zero, add_zero, Fin.sum_univ_three]
          have h0 := hprod (hM i 0).1 (hN 0 j).1
          have h1 := hprod (hM i 1).1 (hN 1 j).1
          have h2 := hprod (hM i 2).1 (hN 2 j).1
          nlinarith)) hg
    show (dot (m i.castSucc) fun k => n k j.castSucc).1 = _
    rw [h, Fin.sum_univ_castSucc]
    simp only [Fin.snoc_castSucc, Fin.snoc_last, zpow_zero, mul_one, add_zero]
  have hp2 : ∀ i : Fin 3, (hmatMul m n i.castSucc 3).1 = ((∑ k, a i k * d k + b i : ℤ) : ℝ) := fun i => by
    have h := dot_grid (m i.castSucc) (fun k => n k 3) (g := 0) (Fin.snoc (α := fun _ => ℤ) (fun k => a i k * d k) (b i)) (fun k => by
      refine Fin.lastCases ?_ (fun k => ?_) k
      · have h1 : (n 3 3).1 = 1 := hn.2.2.2
        have h2 : (m i.castSucc 3).1 = b i := hm.2.1 i
        rw [Fin.snoc_last]
        show (m i.castSucc 3).1 * (n 3 3).1 = _
        rw [h1, h2]; simp
      · rw [Fin.snoc_castSucc]
        have h1 : (m i.castSucc k.castSucc).1 = a i k := hm.1 i k
        have h2 : (n k.castSucc 3).1 = d k := hn.2.1 k
        rw [h1, h2]; push_cast; simp) (hbig _ (by
          rw [Fin.sum_univ_castSucc]
          simp only [Fin.snoc_castSucc, Fin.snoc_last, Fin.sum_univ_three]
          have h0 := hprod (hM i 0).1 (hN 0 0).2
          have h1 := hprod (hM i 1).1 (hN 1 0).2
          have h2 := hprod (hM i 2).1 (hN 2 0).2
          have h3 := (hM i 0).2
          nlinarith)) hg
    show (dot (m i.castSucc) fun k => n k 3).1 = _
    rw [h, Fin.sum_univ_castSucc]
    simp only [Fin.snoc_castSucc, Fin.snoc_last, zpow_zero, mul_one]
  funext i
  apply Fl.ext
  rw [hright]
  have h := row_grid (hmatMul m n i.castSucc) v (g := 0) (fun j => (∑ k, a i k * c k j) * x j) (∑ k, a i k * d k + b i) (fun j => by
    rw [hp1, hv]; push_cast; simp) (by rw [hp2]; simp) (hbig _ (by
      have hr : ∀ j, |∑ k, a i k * c k j| ≤ 3 * (M * N) := fun j => by
        rw [Fin.sum_univ_three]
        have h0 := hprod (hM i 0).1 (hN 0 j).1
        have h1 := hprod (hM i 1).1 (hN 1 j).1
        have h2 := hprod (hM i 2).1 (hN 2 j).1
        have := abs_add_three (a i 0 * c 0 j) (a i 1 * c 1 j) (a i 2 * c 2 j)
        linarith
      have ht : |∑ k, a i k * d k + b i| ≤ 3 * (M * N) + M := by
        rw [Fin.sum_univ_three]
        have h0 := hprod (hM i 0).1 (hN 0 0).2
        have h1 := hprod (hM i 1).1 (hN 1 0).2
        have h2 := hprod (hM i 2).1 (hN 2 0).2
        have h3 := (hM i 0).2
        have := abs_add_three (a i 0 * d 0) (a i 1 * d 1) (a i 2 * d 2)
        exact (abs_add_le _ _).trans (by linarith)
      have q0 := hprod (hr 0) (hV 0)
      have q1 := hprod (hr 1) (hV 1)
      have q2 := hprod (hr 2) (hV 2)
      rw [Fin.sum_univ_three]
      nlinarith)) hg
  show (dot (hmatMul m n i.castSucc) (toHvec v)).1 = _
  rw [h]
  simp only [Fin.sum_univ_three]
  push_cast
  ring

/-- **C158** The extreme projections of points on a direction are exact: the least and the greatest of the exact projections are returned. -/
theorem C158_extreme {D : ℕ} [Tol (Fl F)] [HasLimits (Fl F)] (dbg : Bool) (dir : Vec (Fl F) D) (pts : List (Vec (Fl F) D)) (hne : pts ≠ [])
    (hdir : dbg = true → isEq (length dir) 1 = true) (g : ℤ) (hg : ∀ k, F.emin = some k → k ≤ g)
    (hn : ∀ p ∈ pts, ∀ i, ∃ n : ℤ, (p i).1 * (dir i).1 = n * (2 : ℝ) ^ g) (hs : ∀ p ∈ pts, ∑ i, |(p i).1 * (dir i).1| ≤ 2 ^ F.prec * (2 : ℝ) ^ g)
    (hlim : ∀ p ∈ pts, (HasLimits.lowest : Fl F).1 ≤ ∑ i, (p i).1 * (dir i).1 ∧ ∑ i, (p i).1 * (dir i).1 ≤ (HasLimits.maxVal : Fl F).1) :
    ∃ m, extremePointsAlongDirection dbg dir pts = .ok m ∧
      IsLeast {x | ∃ p ∈ pts, x = ∑ i, (p i).1 * (dir i).1} m.min.1 ∧ IsGreatest {x | ∃ p ∈ pts, x = ∑ i, (p i).1 * (dir i).1} m.max.1 := by
  have hp := two_zpow_pos g
  have hex : ∀ p ∈ pts, (dot p dir).1 = ∑ i, (p i).1 * (dir i).1 := fun p hpp => by
    choose n h1 using hn p hpp
    have h2 := hs p hpp
    simp only [h1, abs_mul, abs_of_pos hp] at h2
    rw [← Finset.sum_mul] at h2
    rw [dot_grid p dir n h1 (by exact_mod_cast le_of_mul_le_mul_right h2 hp) hg, Finset.sum_congr rfl fun i _ => h1 i, ← Finset.sum_mul]
    push_cast; ring
  replace hlim : ∀ p ∈ pts, (HasLimits.lowest : Fl F) ≤ dot p dir ∧ dot p dir ≤ HasLimits.maxVal := fun p hpp => by
    rw [Fl.le_iff, Fl.le_iff, hex p hpp]
    exact hlim p hpp
  have hemp : (!pts.isEmpty) = true := by
    cases pts with
    | nil => exact absurd rfl hne
    | cons => rfl
  obtain ⟨q0, hq0⟩ := List.exists_mem_of_ne_nil pts hne
  obtain ⟨-, h3, h4, h5⟩ := extremeLoop_spec dir ⟨HasLimits.maxVal, HasLimits.lowest⟩ pts
  refine ⟨extremeLoop dir ⟨HasLimits.maxVal, HasLimits.lowest⟩ pts, ?_, ⟨?_, ?_⟩, ⟨?_, ?_⟩⟩
  · cases dbg with
    | false => rfl
    | true =>
      simp only [extremePointsAlongDirection, hemp, hdir rfl]
      rfl
  · have hatt : ∃ p ∈ pts, (extremeLoop dir ⟨HasLimits.maxVal, HasLimits.lowest⟩ pts).min = dot p dir := by
      rcases h4 with h | h
      · exact ⟨q0, hq0, le_antisymm (h3 q0 hq0).1 (by rw [h]; exact (hlim q0 hq0).2)⟩
      · exact h
    obtain ⟨p, hpp, he⟩ := hatt
    exact ⟨p, hpp, by rw [he, hex p hpp]⟩
  · rintro x ⟨p, hpp, rfl⟩
    rw [← hex p hpp]
    exact (h3 p hpp).1
  · have hatt : ∃ p ∈ pts, (extremeLoop dir ⟨HasLimits.maxVal, HasLimits.lowest⟩ pts).max = dot p dir := by
      rcases h5 with h | h
      · exact ⟨q0, hq0, le_antisymm (by rw [h]; exact (hlim q0 hq0).1) (h3 q0 hq0).2⟩
      · exact h
    obtain ⟨p, hpp, he⟩ := hatt
    exact ⟨p, hpp, by rw [he, hex p hpp]⟩
  · rintro x ⟨p, hpp, rfl⟩
    rw [← hex p hpp]
    exact (h3 p hpp).2
end

section Examples
attribute [local instance] tol64
noncomputable local instance limitsExact : HasLimits (Fl binary64) := ⟨fl64 (10 ^ 9), fl64 (-10 ^ 9)⟩

/-- The shear moves (100, 200, 300) to (805, 1407, 609), exactly. -/
example : Fl.toReal (transformVec (p64 100 200 300) shear64) = ![805, 1407, 609] := by
  rw [C158_point (p64 100 200 300) shear64 shear64_describes 0 binary64.emin_le (fun i j => by
      have hv : ((p64 100 200 300) j).1 = ((![100, 200, 300] : Fin 3 → ℤ) j : ℝ) := by fin_cases j <;> rfl
      rw [hv]
      refine ⟨!![2, 3, 0; 0, 1, 4; 1, 1, 1] i j * (![100, 200, 300] : Fin 3 → ℤ) j, ?_⟩
      fin_cases i <;> fin_cases j <;> simp <;> norm_num) (fun i => ⟨(![5, 7, 9] : Fin 3 → ℤ) i, by fin_cases i <;> simp⟩) (fun i => by
      have hp : (2 : ℝ) ^ binary64.prec = 2 ^ 53 := rfl
      have h0 : ((p64 100 200 300) 0).1 = 100 := by show ((100 : ℤ) : ℝ) = 100; norm_num
      have h1 : ((p64 100 200 300) 1).1 = 200 := by show ((200 : ℤ) : ℝ) = 200; norm_num
      have h2 : ((p64 100 200 300) 2).1 = 300 := by show ((300 : ℤ) : ℝ) = 300; norm_num
      rw [Fin.sum_univ_three, h0, h1, h2, hp]
      fin_cases i <;> simp <;> norm_num)]
  have hv : Fl.toReal (p64 100 200 300) = ![100, 200, 300] := by
    funext j
    fin_cases j <;> simp [Fl.toReal, p64, fl64_val]
  rw [hv]
  funext i
  fin_cases i <;> simp [affine, mulVec, dotProduct, Fin.sum_univ_three] <;> norm_num

/-- With 53 digits the limit is 9007199254740992. -/
example : ∃ (v : Vec (Fl binary64) 3) (m : HMat (Fl binary64)), Describes m.vals 1 1 ∧ Fl.toReal v = (fun _ => 2 ^ 53) ∧
    ∀ i, Fl.toReal (transformVec v m) i ≠ affine 1 1 (Fl.toReal v) i := C158_sharp binary64

/-- The inverse of the quarter turn. -/
noncomputable def unturn64 : HMat (Fl binary64) :=
  ![![fl64 0, fl64 1, fl64 0, fl64 (-7)], ![fl64 (-1), fl64 0, fl64 0, fl64 5], ![fl64 0, fl64 0, fl64 1, fl64 (-9)], ![fl64 0, fl64 0, fl64 0, fl64 1]]

theorem unturn64_describes : Describes unturn64.vals !![0, 1, 0; -1, 0, 0; 0, 0, 1] ![-7, 5, -9] := by
  refine ⟨?_, ?_, ?_, ?_⟩
  · intro i j; fin_cases i <;> fin_cases j <;> simp [HMat.vals, unturn64, fl64_val]
  · intro i; fin_cases i <;> simp [HMat.vals, unturn64, fl64_val]
  · intro j; fin_cases j <;> simp [HMat.vals, unturn64, fl64_val]
  · simp [HMat.vals, unturn64, fl64_val]

/-- Turned and turned back. -/
example : transformVec (transformVec (p64 100 200 300) turn64) unturn64 = p64 100 200 300 := by
  have hp : (2 : ℝ) ^ binary64.prec = 2 ^ 53 := rfl
  have hv : Fl.toReal (p64 100 200 300) = fun j => ((![100, 200, 300] : Fin 3 → ℤ) j : ℝ) := by
    funext j
    fin_cases j <;> simp [Fl.toReal, p64, fl64_val]
  have hvj : ∀ j, ((p64 100 200 300) j).1 = ((![100, 200, 300] : Fin 3 → ℤ) j : ℝ) := fun j => congrFun hv j
  have hw : affine !![0, -1, 0; 1, 0, 0; 0, 0, 1] ![5, 7, 9] (Fl.toReal (p64 100 200 300)) = fun j => ((![-195, 107, 309] : Fin 3 → ℤ) j : ℝ) := by
    rw [hv]
    funext i
    fin_cases i <;> simp [affine, mulVec, dotProduct, Fin.sum_univ_three] <;> norm_num
  refine C158_round_trip (p64 100 200 300) turn64 unturn64 turn64_describes unturn64_describes ?_ ?_ 0 0
    (fun k hk => ⟨binary64.emin_le k hk, binary64.emin_le k hk⟩) ?_ ?_ ?_ ?_ ?_ ?_
  · ext i j; fin_cases i <;> fin_cases j <;> simp [Matrix.mul_apply, Fin.sum_univ_three]
  · funext i; fin_cases i <;> simp [mulVec, dotProduct, Fin.sum_univ_three]
  · intro i j
    rw [hvj]
    refine ⟨!![0, -1, 0; 1, 0, 0; 0, 0, 1] i j * (![100, 200, 300] : Fin 3 → ℤ) j, ?_⟩
    fin_cases i <;> fin_cases j <;> simp
  · exact fun i => ⟨(![5, 7, 9] : Fin 3 → ℤ) i, by fin_cases i <;> simp⟩
  · intro i
    simp only [hvj, hp]
    fin_cases i <;> simp [Fin.sum_univ_three] <;> norm_num
  · intro i j
    rw [hw]
    refine ⟨!![0, 1, 0; -1, 0, 0; 0, 0, 1] i j * (![-195, 107, 309] : Fin 3 → ℤ) j, ?_⟩
    fin_cases i <;> fin_cases j <;> simp
  · exact fun i => ⟨(![-7, 5, -9] : Fin 3 → ℤ) i, by fin_cases i <;> simp⟩
  · intro i
    rw [hw, hp]
    fin_cases i <;> simp [Fin.sum_univ_three] <;> norm_num

/-- The shear after the turn, and their product. -/
example : transformVec (p64 100 200 300) (hmatMul shear64 turn64) = transformVec (transformVec (p64 100 200 300) turn64) shear64 := by
  refine C158_compose (p64 100 200 300) shear64 turn64 (a := !![2, 3, 0; 0, 1, 4; 1, 1, 1]) (b := ![5, 7, 9]) (c := !![0, -1, 0; 1, 0, 0; 0, 0, 1])
    (d := ![5, 7, 9]) (x := ![100, 200, 300]) ?_ ?_ ?_ 9 9 300 (by norm_num) ?_ ?_ ?_ ?_
  · convert shear64_describes using 1
    · ext i j; fin_cases i <;> fin_cases j <;> simp
    · ext i; fin_cases i <;> simp
  · convert turn64_describes using 1
    · ext i j; fin_cases i <;> fin_cases j <;> simp
    · ext i; fin_cases i <;> simp
  · intro j; fin_cases j <;> rfl
  · intro i j; fin_cases i <;> fin_cases j <;> simp
  · intro i j; fin_cases i <;> fin_cases j <;> simp
  · intro j; fin_cases j <;> simp
  · show 4 * 9 * 9 * (3 * 300 + 1) ≤ (2 : ℤ) ^ 53; norm_num

/-- The projections of two points on (2, 3, 6) reach from 26 to 59. -/
example : ∃ m, extremePointsAlongDirection false (p64 2 3 6) [p64 1 2 3, p64 4 5 6] = .ok m ∧ m.min.1 = 26 ∧ m.max.1 = 59 := by
  have hp : (2 : ℝ) ^ binary64.prec = 2 ^ 53 := rfl
  have e1 : ∀ i, ((p64 1 2 3) i).1 * ((p64 2 3 6) i).1 = ((![2, 6, 18] : Fin 3 → ℤ) i : ℝ) := by
    intro i; fin_cases i <;> simp [p64, fl64_val] <;> norm_num
  have e2 : ∀ i, ((p64 4 5 6) i).1 * ((p64 2 3 6) i).1 = ((![8, 15, 36] : Fin 3 → ℤ) i : ℝ) := by
    intro i; fin_cases i <;> simp [p64, fl64_val] <;> norm_num
  have s1 : ∑ i, ((p64 1 2 3) i).1 * ((p64 2 3 6) i).1 = 26 := by simp only [e1]; simp [Fin.sum_univ_three]; norm_num
  have s2 : ∑ i, ((p64 4 5 6) i).1 * ((p64 2 3 6) i).1 = 59 := by simp only [e2]; simp [Fin.sum_univ_three]; norm_num
  obtain ⟨m, h1, h2, h3⟩ := C158_extreme false (p64 2 3 6) [p64 1 2 3, p64 4 5 6] (by simp) (by simp) 0 binary64.emin_le (by
      intro q hq i
      simp only [List.mem_cons, List.not_mem_nil, or_false] at hq
      rcases hq with rfl | rfl
      · exact ⟨_, by rw [e1, zpow_zero, mul_one]⟩
      · exact ⟨_, by rw [e2, zpow_zero, mul_one]⟩) (by
      intro q hq
      simp only [List.mem_cons, List.not_mem_nil, or_false] at hq
      rcases hq with rfl | rfl
      · simp only [e1, hp]; simp [Fin.sum_univ_three]; norm_num
      · simp only [e2, hp]; simp [Fin.sum_univ_three]; norm_num) (by
      intro q hq
      simp only [List.mem_cons, List.not_mem_nil, or_false] at hq
      have hlo : (HasLimits.lowest : Fl binary64).1 = -10 ^ 9 := by show ((-10 ^ 9 : ℤ) : ℝ) = _; norm_num
      have hhi : (HasLimits.maxVal : Fl binary64).1 = 10 ^ 9 := by show ((10 ^ 9 : ℤ) : ℝ) = _; norm_num
      rw [hlo, hhi]
      rcases hq with rfl | rfl
      · rw [s1]; norm_num
      · rw [s2]; norm_num)
  have hset : {x | ∃ p ∈ [p64 1 2 3, p64 4 5 6], x = ∑ i, (p i).1 * ((p64 2 3 6) i).1} = {26, 59} := by
    ext x
    simp only [List.mem_cons, List.not_mem_nil, or_false, Set.mem_ofPred_eq, exists_eq_or_imp, exists_eq_left, s1, s2, Set.mem_insert_iff, Set.mem_singleton_iff]
  rw [hset] at h2 h3
  refine ⟨m, h1, ?_, ?_⟩
  · exact h2.unique ⟨by simp, by rintro x (rfl | rfl) <;> norm_num⟩
  · exact h3.unique ⟨by simp, by rintro x (rfl | rfl) <;> norm_num⟩
end Examples

end Verif
