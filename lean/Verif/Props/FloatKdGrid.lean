import Verif.Props.FloatCrossGrid
import Verif.Props.FloatSegment3

set_option linter.unusedSectionVars false

/-
C157: the k-d tree on grids in floating point arithmetic: nearest neighbours are exact.
-/
namespace Verif
open Spec KdNode

section
variable {F : FloatFormat} {D : Nat}

/-- On a grid the squares and their sums are not rounded. -/
theorem kdAcc_grid {a b : Vec (Fl F) D} {n m : Fin D → ℤ} {e : ℤ} (ha : ∀ i, (a i).1 = n i * 2 ^ e) (hb : ∀ i, (b i).1 = m i * 2 ^ e)
    (hs : ∑ i, (n i - m i) ^ 2 ≤ 2 ^ F.prec) (he : ∀ k, F.emin = some k → k ≤ e ∧ k ≤ 2 * e) (l : Nat) (hl : l ≤ D) :
    (kdAcc a b l hl).1 = ((∑ i : Fin l, (n (i.castLE hl) - m (i.castLE hl)) ^ 2 : ℤ) : ℝ) * 2 ^ (2 * e) := by
  have hpart : ∀ l (hl : l ≤ D), ∑ i : Fin l, (n (i.castLE hl) - m (i.castLE hl)) ^ 2 ≤ (2 : ℤ) ^ F.prec := by
    intro l hl
    refine le_trans ?_ hs
    obtain ⟨r, rfl⟩ := Nat.exists_eq_add_of_le hl
    rw [Fin.sum_univ_add]
    have h0 : 0 ≤ ∑ i : Fin r, (n (Fin.natAdd l i) - m (Fin.natAdd l i)) ^ 2 := Finset.sum_nonneg fun i _ => sq_nonneg _
    have h1 : ∑ i : Fin l, (n (i.castLE hl) - m (i.castLE hl)) ^ 2 = ∑ i : Fin l, (n (Fin.castAdd r i) - m (Fin.castAdd r i)) ^ 2 := rfl
    rw [h1]; linarith
  have hz : (2 : ℝ) ^ (2 * e) = 2 ^ e * 2 ^ e := by rw [two_mul, zpow_add₀ (by norm_num)]
  induction l with
  | zero => simp [kdAcc]
  | succ l ih =>
    have hl' : l ≤ D := by omega
    rw [kdAcc_succ, Fl.val_add, ih hl', Fl.val_mul, Fl.val_sub, ha, hb]
    set d : ℤ := n ⟨l, hl⟩ - m ⟨l, hl⟩ with hd
    have hS := hpart (l + 1) hl
    rw [Fin.sum_univ_castSucc] at hS ⊢
    set S : ℤ := ∑ i : Fin l, (n ((i.castSucc).castLE hl) - m ((i.castSucc).castLE hl)) ^ 2 with hSd
    have e1 : ∑ i : Fin l, (n (i.castLE hl') - m (i.castLE hl')) ^ 2 = S := rfl
    have e2 : n ((Fin.last l).castLE hl) - m ((Fin.last l).castLE hl) = d := rfl
    rw [e1]
    rw [e2] at hS ⊢
    have hS0 : 0 ≤ S := Finset.sum_nonneg fun i _ => sq_nonneg _
    have hd2 : d ^ 2 ≤ 2 ^ F.prec := by linarith
    have hd1 : |d| ≤ 2 ^ F.prec := by
      refine le_trans ?_ hd2
      rw [← sq_abs]
      rcases Int.le_iff_lt_or_eq.1 (abs_nonneg d) with h | h
      · nlinarith
      · rw [← h]; norm_num
    have r1 : F.rnd ((n ⟨l, hl⟩ : ℝ) * 2 ^ e - m ⟨l, hl⟩ * 2 ^ e) = d * 2 ^ e := by
      have : (n ⟨l, hl⟩ : ℝ) * 2 ^ e - m ⟨l, hl⟩ * 2 ^ e = d * 2 ^ e := by rw [hd]; push_cast; ring
      rw [this]; exact rnd_multiple d e rfl hd1 fun k hk => (he k hk).1
    rw [r1]
    have r2 : F.rnd ((d : ℝ) * 2 ^ e * (d * 2 ^ e)) = ((d ^ 2 : ℤ) : ℝ) * 2 ^ (2 * e) := by
      have : (d : ℝ) * 2 ^ e * (d * 2 ^ e) = ((d ^ 2 : ℤ) : ℝ) * 2 ^ (2 * e) := by rw [hz]; push_cast; ring
      rw [this]; exact rnd_multiple (d ^ 2) (2 * e) rfl (by rw [abs_of_nonneg (sq_nonneg d)]; exact hd2) fun k hk => (he k hk).2
    rw [r2]
    have : (S : ℝ) * 2 ^ (2 * e) + ((d ^ 2 : ℤ) : ℝ) * 2 ^ (2 * e) = ((S + d ^ 2 : ℤ) : ℝ) * 2 ^ (2 * e) := by push_cast; ring
    rw [this]
    exact rnd_multiple _ _ rfl (by rw [abs_of_nonneg (by positivity)]; exact hS) fun k hk => (he k hk).2

/-- Rounded roots of different integers up to `2^(prec-2)` are different and ordered as the integers. -/
theorem rnd_sqrt_lt {x y : ℤ} {e : ℤ} (hx : 0 ≤ x) (hxy : x < y) (hy : y ≤ 2 ^ (F.prec - 2))
    (he : ∀ k, F.emin = some k → k + F.prec - 1 ≤ e) :
    F.rnd (√((x : ℝ) * 2 ^ (2 * e))) < F.rnd (√((y : ℝ) * 2 ^ (2 * e))) := by
  have hz : (2 : ℝ) ^ (2 * e) = 2 ^ e * 2 ^ e := by rw [two_mul, zpow_add₀ (by norm_num)]
  have hp := two_zpow_pos e
  have hroot : ∀ z : ℤ, 0 ≤ z → √((z : ℝ) * 2 ^ (2 * e)) = √z * 2 ^ e := fun z hz0 => by
    rw [Real.sqrt_mul (by exact_mod_cast hz0), hz, Real.sqrt_mul_self hp.le]
  have hsafe : ∀ z : ℤ, 0 ≤ z → Safe F.prec F.emin (√(z : ℝ) * 2 ^ e) := fun z hz0 => by
    rcases hz0.eq_or_lt with rfl | h
    · left; simp
    · right
      intro k hk
      have h1 : (1 : ℝ) ≤ √z := by rw [Real.one_le_sqrt]; exact_mod_cast h
      rw [abs_of_nonneg (by positivity)]
      calc (2 : ℝ) ^ (k + F.prec - 1) ≤ 2 ^ e := zpow_le_zpow_right₀ (by norm_num) (he k hk)
        _ ≤ √z * 2 ^ e := by nlinarith
  rw [hroot x hx, hroot y (by omega)]
  have bx := (F.rounds.bounds F.one_lt_prec (hsafe x hx) (by positivity)).2
  have by' := (F.rounds.bounds F.one_lt_prec (hsafe y (by omega)) (by positivity)).1
  set u := (2 : ℝ)⁻¹ ^ F.prec with hu
  have hu0 : 0 < u := by positivity
  have hyr : (y : ℝ) ≤ 2 ^ (F.prec - 2) := by exact_mod_cast hy
  have huy : 4 * (u * y) ≤ 1 := by
    have h4 : (2 : ℝ) ^ F.prec = 4 * 2 ^ (F.prec - 2) := by
      have := F.one_lt_prec
      rw [show F.prec = 2 + (F.prec - 2) by omega, pow_add]; norm_num
    have : u * 2 ^ F.prec = 1 := by rw [hu, ← mul_pow]; norm_num
    nlinarith [mul_le_mul_of_nonneg_left hyr hu0.le]
  have hxr : (0 : ℝ) ≤ x := by exact_mod_cast hx
  have hxyr : (x : ℝ) + 1 ≤ y := by exact_mod_cast hxy
  have hsx := Real.sq_sqrt hxr
  have hsy := Real.sq_sqrt (show (0 : ℝ) ≤ y by linarith)
  have hlt : √(x : ℝ) < √(y : ℝ) := Real.sqrt_lt_sqrt hxr (by linarith)
  have hx0 := Real.sqrt_nonneg (x : ℝ)
  have key : √(x : ℝ) * (1 + u) < √(y : ℝ) * (1 - u) := by
    have h1 : u * (√(x : ℝ) + √y) * (√(x : ℝ) + √y) < (√(y : ℝ) - √x) * (√(x : ℝ) + √y) := by
      have e1 : (√(y : ℝ) - √x) * (√(x : ℝ) + √y) = y - x := by rw [← hsx, ← hsy]; simp only [Real.sqrt_sq hx0, Real.sqrt_sq (hx0.trans hlt.le)]; ring
      have e2 : (√(x : ℝ) + √y) * (√(x : ℝ) + √y) < 4 * y := by nlinarith
      rw [e1, mul_assoc]
      nlinarith [mul_lt_mul_of_pos_left e2 hu0]
    have := lt_of_mul_lt_mul_right h1 (by positivity)
    linarith
  calc _ ≤ _ := bx
    _ < _ := by nlinarith [mul_lt_mul_of_pos_right key hp]
    _ ≤ _ := by'
end

section
variable {F : FloatFormat} {D : Nat} {P : Type} {w : Nat} [NeZero D] [BEq (Vec (Fl F) D)] [LawfulBEq (Vec (Fl F) D)]

/-- **C157** In every binary floating point format and with every rounding to nearest: if all coordinates are integer multiples
of one power of two and the squared distances, in this unit, are at most `2^(prec-2)` – for `double` `2^51`, so
e.g. integer coordinates up to 13 million in space – then `nearest` returns a truly nearest point, with the payload of
its first insertion: rounding has no influence.  The power of two has to be clear of underflow (`2^-511` for `double`, `2^-63` for
`float`). -/
theorem C157_nearest_exact (h : List (Vec (Fl F) D × P)) (q : Vec (Fl F) D) (e : ℤ)
    (he : ∀ k, F.emin = some k → gridExp F.prec k ≤ e)
    (hh : ∀ a ∈ h, ∃ n : Fin D → ℤ, ∀ i, (a.1 i).1 = n i * (2 : ℝ) ^ e) (hq : ∃ m : Fin D → ℤ, ∀ i, (q i).1 = m i * (2 : ℝ) ^ e)
    (hd : ∀ a ∈ h, Spec.dist (Fl.toReal a.1) (Fl.toReal q) ^ 2 ≤ 2 ^ (F.prec - 2) * (2 : ℝ) ^ (2 * e)) (hne : h ≠ []) :
    ∃ r ∈ Spec.firstEntries h, (KdTree.build w h).nearest q = .ok r ∧
      ∀ a ∈ h, Spec.dist (Fl.toReal r.1) (Fl.toReal q) ≤ Spec.dist (Fl.toReal a.1) (Fl.toReal q) := by
  obtain ⟨m, hm⟩ := hq
  have hgrid : ∀ n : ℤ, OnGrid F.prec F.emin ((n : ℝ) * 2 ^ e) := fun n k hk => by
    obtain ⟨d, hd'⟩ := Int.eq_ofNat_of_zero_le (show 0 ≤ e - gridExp F.prec k by have := he k hk; omega)
    refine ⟨n * 2 ^ d, ?_⟩
    rw [show e = d + gridExp F.prec k by omega, zpow_add₀ (by norm_num), zpow_natCast]
    push_cast; ring
  have hh' : ∀ a ∈ h, ∀ i, OnGrid F.prec F.emin (a.1 i).1 := fun a ha i => by
    obtain ⟨n, hn⟩ := hh a ha; rw [hn]; exact hgrid _
  have hq' : ∀ i, OnGrid F.prec F.emin (q i).1 := fun i => by rw [hm]; exact hgrid _
  have hp := (KdTree.build_refines (w := w) h).2.1
  have hr : (KdTree.build w h).Reachable := KdTree.build_reachable h hh'
  have hc := KdTree.nearest_least (KdTree.build w h) hr q hq'
  have hne' : entries (KdTree.build w h).root ≠ [] := by
    obtain ⟨a, ha⟩ := List.exists_mem_of_ne_nil h hne
    obtain ⟨a', ha', _⟩ := (Spec.mem_firstEntries_key h a.1).2 ⟨a, ha, by simp⟩
    intro hn
    rw [hn] at hp
    rw [hp.nil_eq.symm] at ha'
    simp at ha'
  obtain ⟨r, hr1, hr2, hr3⟩ := hc.2 hne'
  refine ⟨r, hp.mem_iff.1 hr1, hr2, fun a ha => ?_⟩
  obtain ⟨a', ha', heq⟩ := (Spec.mem_firstEntries_key h a.1).2 ⟨a, ha, by simp⟩
  have h3 := hr3 a' (hp.mem_iff.2 ha')
  rw [eq_of_beq heq] at h3
  -- the entry `r` was inserted
  obtain ⟨r', hrh, hreq⟩ := (Spec.mem_firstEntries_key h r.1).1 ⟨r, hp.mem_iff.1 hr1, by simp⟩
  have hreq' := eq_of_beq hreq
  obtain ⟨n, hn⟩ := hh a ha
  obtain ⟨s, hs⟩ := hh r' hrh
  rw [hreq'] at hs
  have hpos := two_zpow_pos (2 * e)
  have hz : (2 : ℝ) ^ (2 * e) = 2 ^ e * 2 ^ e := by rw [two_mul, zpow_add₀ (by norm_num)]
  have hdist : ∀ (v : Vec (Fl F) D) (n : Fin D → ℤ), (∀ i, (v i).1 = n i * (2 : ℝ) ^ e) →
      Spec.dist (Fl.toReal v) (Fl.toReal q) ^ 2 = ((∑ i, (n i - m i) ^ 2 : ℤ) : ℝ) * 2 ^ (2 * e) := by
    intro v n hv
    have h0 : Spec.dist (Fl.toReal v) (Fl.toReal q) ^ 2 = ∑ i, ((v i).1 - (q i).1) ^ 2 := by
      unfold Spec.dist
      rw [Real.sq_sqrt (Finset.sum_nonneg fun i _ => by positivity)]
      rfl
    rw [h0]
    push_cast
    rw [Finset.sum_mul]
    refine Finset.sum_congr rfl fun i _ => ?_
    rw [hv, hm, hz]; ring
  have hle : ∀ k, F.emin = some k → k ≤ e ∧ k ≤ 2 * e ∧ k + F.prec - 1 ≤ e := fun k hk => by
    have h1 := he k hk
    have h2 := F.one_lt_prec
    unfold gridExp at h1
    have h3 := F.emin_le k hk
    omega
  have hbound : ∀ (n : Fin D → ℤ) (v : Vec (Fl F) D), (∀ i, (v i).1 = n i * (2 : ℝ) ^ e) →
      Spec.dist (Fl.toReal v) (Fl.toReal q) ^ 2 ≤ 2 ^ (F.prec - 2) * (2 : ℝ) ^ (2 * e) → ∑ i, (n i - m i) ^ 2 ≤ (2 : ℤ) ^ (F.prec - 2) := by
    intro n v hv h1
    rw [hdist v n hv] at h1
    exact_mod_cast le_of_mul_le_mul_right h1 hpos
  have ba := hbound n a.1 hn (hd a ha)
  have br := hbound s r.1 hs (by rw [← hreq']; exact hd r' hrh)
  have hpow : (2 : ℤ) ^ (F.prec - 2) ≤ 2 ^ F.prec := pow_le_pow_right₀ (by norm_num) (by omega)
  by_contra hlt
  push Not at hlt
  have h4 : Spec.dist (Fl.toReal a.1) (Fl.toReal q) ^ 2 < Spec.dist (Fl.toReal r.1) (Fl.toReal q) ^ 2 :=
    pow_lt_pow_left₀ hlt (Real.sqrt_nonneg _) (by norm_num)
  rw [hdist a.1 n hn, hdist r.1 s hs] at h4
  have h5 : ∑ i, (n i - m i) ^ 2 < ∑ i, (s i - m i) ^ 2 := by exact_mod_cast lt_of_mul_lt_mul_right h4 hpos.le
  have h6 := rnd_sqrt_lt (F := F) (e := e) (Finset.sum_nonneg fun i _ => sq_nonneg (n i - m i)) h5 br fun k hk => (hle k hk).2.2
  have k1 : (kdDistance a.1 q).1 = F.rnd (√(((∑ i, (n i - m i) ^ 2 : ℤ) : ℝ) * 2 ^ (2 * e))) := by
    rw [kdDistance_acc, Fl.val_sqrt, kdAcc_grid hn hm (ba.trans hpow) (fun k hk => ⟨(hle k hk).1, (hle k hk).2.1⟩) D le_rfl]
    rfl
  have k2 : (kdDistance r.1 q).1 = F.rnd (√(((∑ i, (s i - m i) ^ 2 : ℤ) : ℝ) * 2 ^ (2 * e))) := by
    rw [kdDistance_acc, Fl.val_sqrt, kdAcc_grid hs hm (br.trans hpow) (fun k hk => ⟨(hle k hk).1, (hle k hk).2.1⟩) D le_rfl]
    rfl
  rw [← k1, ← k2] at h6
  exact absurd h6 (not_lt.2 h3)
end

/-- **C157** (the bound is sharp up to a factor two) In every format with an odd number `2 m + 1` of digits, so for `double` (`m = 26`):
of the two points `(2^m, 1)` and `(2^m, 0)`, inserted in this order, `nearest` returns the first for the query `(0, 0)` – with
the squared distance `2^(prec-1) + 1` instead of `2^(prec-1)`. -/
theorem C157_sharp (F : FloatFormat) (m : ℕ) (hm : F.prec = 2 * m + 1) (w : Nat)
    [BEq (Vec (Fl F) 2)] [LawfulBEq (Vec (Fl F) 2)] :
    ∃ (a b q : Vec (Fl F) 2), Fl.toReal a = ![2 ^ m, 1] ∧ Fl.toReal b = ![2 ^ m, 0] ∧ Fl.toReal q = ![0, 0] ∧
      (KdTree.build w [(a, "far"), (b, "near")]).nearest q = .ok (a, "far") ∧
      Spec.dist (Fl.toReal b) (Fl.toReal q) < Spec.dist (Fl.toReal a) (Fl.toReal q) := by
  have hm1 : 1 ≤ m := by have := F.one_lt_prec; omega
  have hrep : Representable F.prec F.emin ((2 : ℝ) ^ m) := by
    rw [← zpow_natCast]
    apply representable_two_pow F.one_lt_prec
    intro k hk
    have := F.emin_le k hk
    omega
  have hrep2 : F.rnd ((2 : ℝ) ^ m * 2 ^ m) = 2 ^ m * 2 ^ m := by
    apply F.rounds.exact
    rw [← pow_add, ← zpow_natCast]
    apply representable_two_pow F.one_lt_prec
    intro k hk
    have := F.emin_le k hk
    omega
  have hrep3 : F.rnd ((2 : ℝ) ^ m * 2 ^ m + 1) = 2 ^ m * 2 ^ m + 1 := by
    apply F.rounds.exact
    refine ⟨2 ^ m * 2 ^ m + 1, 0, ?_, fun k hk => F.emin_le k hk, by push_cast; simp⟩
    rw [abs_of_nonneg (by positivity), hm, pow_succ, two_mul, pow_add]
    have : (2 : ℤ) ≤ 2 ^ m * 2 ^ m := by
      have : (2 : ℤ) ^ 1 ≤ 2 ^ m := pow_le_pow_right₀ (by norm_num) hm1
      nlinarith
    linarith
  have hP : (1 : ℝ) ≤ 2 ^ m := one_le_pow₀ (by norm_num)
  -- the root of `2^(2m) + 1` is rounded to `2^m`
  have hroot : F.rnd √((2 : ℝ) ^ m * 2 ^ m + 1) = 2 ^ m := by
    set x := √((2 : ℝ) ^ m * 2 ^ m + 1) with hx
    have hxx : x * x = 2 ^ m * 2 ^ m + 1 := Real.mul_self_sqrt (by positivity)
    have hx0 : 0 ≤ x := Real.sqrt_nonneg _
    have hlo : (2 : ℝ) ^ m ≤ x := by nlinarith
    have hinv : (2 : ℝ) ^ m * 2 ^ (-(m : ℤ)) = 1 := by rw [← zpow_natCast, ← zpow_add₀ (by norm_num)]; simp
    have hi := two_zpow_pos (-(m : ℤ))
    have hhi : x < 2 ^ m + 2 ^ (-(m : ℤ)) / 2 := by nlinarith
    have h1 := F.rounds.le_of hrep hlo
    have h2 := F.rounds.nearest x _ hrep
    by_contra hne
    have hgt : (2 : ℝ) ^ m < F.rnd x := lt_of_le_of_ne h1 (Ne.symm hne)
    obtain ⟨M, E, hM, -, hv⟩ := F.rounds.mem x
    have hE := two_zpow_pos E
    have hMr : (M : ℝ) < 2 ^ F.prec := by exact_mod_cast (abs_lt.1 hM).2
    have hE2 : -(m : ℤ) ≤ E := by
      have : (2 : ℝ) ^ (m : ℤ) < 2 ^ ((F.prec : ℤ) + E) := by
        rw [zpow_natCast, zpow_add₀ (by norm_num), zpow_natCast]
        rw [hv] at hgt
        nlinarith
      have := (zpow_lt_zpow_iff_right₀ (by norm_num : (1 : ℝ) < 2)).1 this
      omega
    obtain ⟨d, hd⟩ := Int.eq_ofNat_of_zero_le (show 0 ≤ E + m by omega)
    have hv2 : F.rnd x = ((M * 2 ^ d : ℤ) : ℝ) * 2 ^ (-(m : ℤ)) := by
      rw [hv, show E = d + -(m : ℤ) by omega, zpow_add₀ (by norm_num), zpow_natCast]
      push_cast; ring
    have hp2 : (2 : ℝ) ^ m = ((2 ^ m * 2 ^ m : ℤ) : ℝ) * 2 ^ (-(m : ℤ)) := by
      push_cast; rw [mul_assoc, hinv, mul_one]
    have hint : (2 ^ m * 2 ^ m : ℤ) < M * 2 ^ d := by
      rw [hv2, hp2] at hgt
      exact_mod_cast lt_of_mul_lt_mul_right hgt hi.le
    have hge : (2 : ℝ) ^ m + 2 ^ (-(m : ℤ)) ≤ F.rnd x := by
      rw [hv2]
      have : ((2 ^ m * 2 ^ m : ℤ) : ℝ) + 1 ≤ ((M * 2 ^ d : ℤ) : ℝ) := by exact_mod_cast hint
      nlinarith
    rw [abs_of_nonneg (by linarith), abs_of_nonpos (by linarith)] at h2
    linarith
  set y : Fl F := ⟨(2 : ℝ) ^ m, hrep⟩ with hy
  have hyv : y.1 = (2 : ℝ) ^ m := rfl
  have h1v : (1 : Fl F).1 = 1 := rfl
  set a : Vec (Fl F) 2 := ![y, 1] with ha
  set b : Vec (Fl F) 2 := ![y, 0] with hb
  set q : Vec (Fl F) 2 := ![0, 0] with hq
  have hdist : kdDistance a q = y := by
    apply Fl.ext
    have e1 : y - 0 = y := Fl.ext (by rw [Fl.val_sub, Fl.val_zero, sub_zero, F.rounds.exact y.2])
    have e2 : (1 : Fl F) - 0 = 1 := Fl.ext (by rw [Fl.val_sub, Fl.val_zero, sub_zero, F.rounds.exact (1 : Fl F).2])
    have e3 : (1 : Fl F) * 1 = 1 := Fl.ext (by rw [Fl.val_mul, h1v, mul_one]; exact F.rounds.exact (1 : Fl F).2)
    unfold kdDistance
    simp only [Fin.foldl_succ, Fin.foldl_zero, ha, hq, Matrix.cons_val_zero, Fin.succ_zero_eq_one, Matrix.cons_val_one, Matrix.cons_val_fin_one, e1, e2, e3]
    rw [Fl.val_sqrt, Fl.val_add, Fl.val_add, Fl.val_mul, Fl.val_zero, zero_add, hyv, hrep2, hrep2, h1v, hrep3, hroot]
  have hne : a ≠ b := by
    intro h
    have := congrArg Subtype.val (congrFun h 1)
    simp [ha, hb] at this
  have hbeq : (a == b) = false := by simpa using hne
  have hax : axisOf 2 (0#w) = 0 := by simp [axisOf]
  have hdist' : kdDistance q a = y := by rw [kdDistance_comm_fl, hdist]
  have hlt : ¬ b 0 < a 0 := by simp [ha, hb]
  have hdiff : q 0 - a 0 = -y := Fl.ext (by
    simp only [hq, ha, Matrix.cons_val_zero, Fl.val_sub, Fl.val_zero, zero_sub, Fl.val_neg]
    rw [F.rounds.odd, F.rounds.exact y.2])
  have hneg : -y < 0 := by rw [Fl.lt_iff, Fl.val_neg, hyv, Fl.val_zero]; linarith
  have habs : ¬ stdAbs (-y) < y := by
    rw [Fl.lt_iff, Fl.val_stdAbs, Fl.val_neg, abs_neg, hyv, abs_of_nonneg (by positivity)]; exact lt_irrefl _
  refine ⟨a, b, q, ?_, ?_, ?_, ?_, ?_⟩
  · funext i; fin_cases i <;> simp [Fl.toReal, ha, hyv]
  · funext i; fin_cases i <;> simp [Fl.toReal, hb, hyv]
  · funext i; fin_cases i <;> simp [Fl.toReal, hq]
  · simp [KdTree.build, KdTree.insert, KdTree.empty, KdTree.nearest, KdTree.nearestPath, insertHelper, nearestHelper, hbeq,
      hax, hlt, hdiff, hdist, hdist', hneg, habs, KdNode.get?]
  · unfold Spec.dist
    apply Real.sqrt_lt_sqrt (Finset.sum_nonneg fun i _ => sq_nonneg _)
    simp [Fin.sum_univ_two, Fl.toReal, ha, hb, hq]

/-! ### Concrete cases -/
section Examples
open Classical

/-- Three points with integer coordinates: the nearest to `(1, 2, 2)` is the origin (distance 3), the others have the squared distances 10 and 11. -/
example : ∃ r, (KdTree.build 64 [(p64 4 2 3, "a"), (p64 0 0 0, "b"), (p64 2 3 5, "c")]).nearest (p64 1 2 2) = .ok r ∧
    ∀ a ∈ [(p64 4 2 3, "a"), (p64 0 0 0, "b"), (p64 2 3 5, "c")],
      Spec.dist (Fl.toReal r.1) (Fl.toReal (p64 1 2 2)) ≤ Spec.dist (Fl.toReal a.1) (Fl.toReal (p64 1 2 2)) := by
  have hv : ∀ x y z hx hy hz, ∃ n : Fin 3 → ℤ, ∀ i, (p64 x y z hx hy hz i).1 = n i * (2 : ℝ) ^ (0 : ℤ) :=
    fun x y z _ _ _ => ⟨![x, y, z], fun i => by fin_cases i <;> simp [p64, fl64]⟩
  have hd : ∀ x y z hx hy hz, Spec.dist (Fl.toReal (p64 x y z hx hy hz)) (Fl.toReal (p64 1 2 2)) ^ 2 = ((x : ℝ) - 1) ^ 2 + (y - 2) ^ 2 + (z - 2) ^ 2 := by
    intro x y z _ _ _
    unfold Spec.dist
    rw [Real.sq_sqrt (Finset.sum_nonneg fun i _ => sq_nonneg _)]
    simp [Fin.sum_univ_three, Fl.toReal, p64, fl64]
  obtain ⟨r, -, h1, h2⟩ := C157_nearest_exact (w := 64) [(p64 4 2 3, "a"), (p64 0 0 0, "b"), (p64 2 3 5, "c")] (p64 1 2 2) 0
    (fun k hk => by cases hk; decide)
    (by simp only [List.forall_mem_cons]; exact ⟨hv _ _ _ _ _ _, hv _ _ _ _ _ _, hv _ _ _ _ _ _, by simp⟩) (hv _ _ _ _ _ _)
    (by
      simp only [List.forall_mem_cons, hd]
      refine ⟨?_, ?_, ?_, by simp⟩ <;> (show _ ≤ (2 : ℝ) ^ (53 - 2) * _; norm_num))
    (by simp)
  exact ⟨r, h1, h2⟩

/-- For `double` the points are `(67108864, 1)` and `(67108864, 0)`. -/
example : ∃ (a b q : Vec (Fl binary64) 2), Fl.toReal a = ![2 ^ 26, 1] ∧ Fl.toReal b = ![2 ^ 26, 0] ∧ Fl.toReal q = ![0, 0] ∧
    (KdTree.build 64 [(a, "far"), (b, "near")]).nearest q = .ok (a, "far") ∧
    Spec.dist (Fl.toReal b) (Fl.toReal q) < Spec.dist (Fl.toReal a) (Fl.toReal q) :=
  C157_sharp binary64 26 rfl 64

end Examples

end Verif
