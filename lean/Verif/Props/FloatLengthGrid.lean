import Verif.Props.FloatKdGrid
import Verif.Props.FloatExact

set_option linter.unusedSectionVars false

/-
C159: lengths, and points and spheres, on grids in floating point arithmetic.
-/
namespace Verif
open Spec

section
variable {F : FloatFormat} {D : ℕ}

/-- The length of a difference of points of a grid is the rounded root of an integer. -/
theorem length_grid {a b : Vec (Fl F) D} {n m : Fin D → ℤ} {e : ℤ} (ha : ∀ i, (a i).1 = n i * 2 ^ e) (hb : ∀ i, (b i).1 = m i * 2 ^ e)
    (hs : ∑ i, (n i - m i) ^ 2 ≤ 2 ^ F.prec) (he : ∀ k, F.emin = some k → k ≤ e ∧ k ≤ 2 * e) :
    (length (vsub a b)).1 = F.rnd (√(((∑ i, (n i - m i) ^ 2 : ℤ) : ℝ) * 2 ^ (2 * e))) := by
  have hz : (2 : ℝ) ^ (2 * e) = 2 ^ e * 2 ^ e := by rw [two_mul, zpow_add₀ (by norm_num)]
  have hdiff : ∀ i, (vsub a b i).1 = ((n i - m i : ℤ) : ℝ) * 2 ^ e := fun i => by
    have hd2 : (n i - m i) ^ 2 ≤ 2 ^ F.prec := (Finset.single_le_sum (f := fun i => (n i - m i) ^ 2) (fun j _ => sq_nonneg _) (Finset.mem_univ i)).trans hs
    refine (rnd_multiple (n i - m i) e ?_ ?_ fun k hk => (he k hk).1).trans ?_
    · rw [ha, hb]; push_cast; ring
    · refine le_trans ?_ hd2
      rw [← sq_abs]
      rcases Int.le_iff_lt_or_eq.1 (abs_nonneg (n i - m i)) with h | h
      · nlinarith
      · rw [← h]; norm_num
    · rw [ha, hb]; push_cast; ring
  unfold length
  rw [Fl.val_sqrt, dot_grid _ _ (g := 2 * e) (fun i => (n i - m i) ^ 2) (fun i => by rw [hdiff, hz]; push_cast; ring)
    ((Finset.sum_congr rfl fun i _ => abs_of_nonneg (sq_nonneg (n i - m i))).le.trans hs) fun k hk => (he k hk).2]

/-- ... of the squared distance. -/
theorem dist_grid {a b : Vec (Fl F) D} {n m : Fin D → ℤ} {e : ℤ} (ha : ∀ i, (a i).1 = n i * 2 ^ e) (hb : ∀ i, (b i).1 = m i * 2 ^ e) :
    Spec.dist (Fl.toReal a) (Fl.toReal b) = √(((∑ i, (n i - m i) ^ 2 : ℤ) : ℝ) * 2 ^ (2 * e)) := by
  have hz : (2 : ℝ) ^ (2 * e) = 2 ^ e * 2 ^ e := by rw [two_mul, zpow_add₀ (by norm_num)]
  unfold Spec.dist
  congr 1
  push_cast
  rw [Finset.sum_mul]
  refine Finset.sum_congr rfl fun i _ => ?_
  rw [show Fl.toReal a i = (a i).1 from rfl, show Fl.toReal b i = (b i).1 from rfl, ha, hb, hz]
  ring

theorem dist_sq_grid {a b : Vec (Fl F) D} {n m : Fin D → ℤ} {e : ℤ} (ha : ∀ i, (a i).1 = n i * 2 ^ e) (hb : ∀ i, (b i).1 = m i * 2 ^ e) :
    Spec.dist (Fl.toReal a) (Fl.toReal b) ^ 2 = ((∑ i, (n i - m i) ^ 2 : ℤ) : ℝ) * 2 ^ (2 * e) := by
  rw [dist_grid ha hb, Real.sq_sqrt]
  have : 0 ≤ ∑ i, (n i - m i) ^ 2 := Finset.sum_nonneg fun i _ => sq_nonneg _
  have h2 := two_zpow_pos (2 * e)
  have h3 : (0 : ℝ) ≤ ((∑ i, (n i - m i) ^ 2 : ℤ) : ℝ) := by exact_mod_cast this
  positivity

/-- **C159** If the coordinates of the end points of a segment are integer multiples of one power of two `2^e` and the squared length, in this unit, is
at most `2^prec` (for `double`: integer coordinates up to 27 million in space), the computed length is the correctly rounded
length: only the last operation rounds. -/
theorem C159_length (s : Segment (Fl F) D) (e : ℤ) (he : ∀ k, F.emin = some k → k ≤ e ∧ k ≤ 2 * e)
    (hs : ∃ n : Fin D → ℤ, ∀ i, (s.source i).1 = n i * (2 : ℝ) ^ e) (ht : ∃ n : Fin D → ℤ, ∀ i, (s.target i).1 = n i * (2 : ℝ) ^ e)
    (hd : Spec.dist (Fl.toReal s.target) (Fl.toReal s.source) ^ 2 ≤ 2 ^ F.prec * (2 : ℝ) ^ (2 * e)) :
    s.length.1 = F.rnd (Spec.dist (Fl.toReal s.target) (Fl.toReal s.source)) := by
  obtain ⟨n, hn⟩ := hs
  obtain ⟨m, hm⟩ := ht
  rw [dist_sq_grid hm hn] at hd
  rw [dist_grid hm hn]
  exact length_grid hm hn (by exact_mod_cast le_of_mul_le_mul_right hd (two_zpow_pos _)) he

/-- **C159** ... and it is the exact length, if this is an integer in the same unit (3, 4 and 5; 2, 3, 6 and 7). -/
theorem C159_exact (s : Segment (Fl F) D) (e : ℤ) (he : ∀ k, F.emin = some k → k ≤ e ∧ k ≤ 2 * e)
    (hs : ∃ n : Fin D → ℤ, ∀ i, (s.source i).1 = n i * (2 : ℝ) ^ e) (ht : ∃ n : Fin D → ℤ, ∀ i, (s.target i).1 = n i * (2 : ℝ) ^ e)
    (k : ℤ) (hk : k ^ 2 ≤ 2 ^ F.prec) (hd : Spec.dist (Fl.toReal s.target) (Fl.toReal s.source) = k * (2 : ℝ) ^ e) :
    s.length.1 = k * (2 : ℝ) ^ e := by
  have hz : (2 : ℝ) ^ (2 * e) = 2 ^ e * 2 ^ e := by rw [two_mul, zpow_add₀ (by norm_num)]
  have hp := two_zpow_pos e
  have hkr : (k : ℝ) ^ 2 ≤ 2 ^ F.prec := by exact_mod_cast hk
  rw [C159_length s e he hs ht (by rw [hd, mul_pow, hz, sq (2 ^ e : ℝ)]; exact mul_le_mul_of_nonneg_right hkr (by positivity)), hd]
  refine rnd_multiple k e rfl ?_ fun j hj => (he j hj).1
  refine le_trans ?_ hk
  rw [← sq_abs]
  rcases Int.le_iff_lt_or_eq.1 (abs_nonneg k) with h | h
  · nlinarith
  · rw [← h]; norm_num

/-- **C159** Segments on a grid are ordered by their computed lengths just as by their lengths, up to squared lengths of `2^(prec-2)` units. -/
theorem C159_order (s t : Segment (Fl F) D) (e : ℤ) (he : ∀ k, F.emin = some k → gridExp F.prec k ≤ e)
    (hs : ∃ n : Fin D → ℤ, ∀ i, (s.source i).1 = n i * (2 : ℝ) ^ e) (hs' : ∃ n : Fin D → ℤ, ∀ i, (s.target i).1 = n i * (2 : ℝ) ^ e)
    (ht : ∃ n : Fin D → ℤ, ∀ i, (t.source i).1 = n i * (2 : ℝ) ^ e) (ht' : ∃ n : Fin D → ℤ, ∀ i, (t.target i).1 = n i * (2 : ℝ) ^ e)
    (hds : Spec.dist (Fl.toReal s.target) (Fl.toReal s.source) ^ 2 ≤ 2 ^ (F.prec - 2) * (2 : ℝ) ^ (2 * e))
    (hdt : Spec.dist (Fl.toReal t.target) (Fl.toReal t.source) ^ 2 ≤ 2 ^ (F.prec - 2) * (2 : ℝ) ^ (2 * e)) :
    s.length < t.length ↔ Spec.dist (Fl.toReal s.target) (Fl.toReal s.source) < Spec.dist (Fl.toReal t.target) (Fl.toReal t.source) := by
  have hle : ∀ k, F.emin = some k → k ≤ e ∧ k ≤ 2 * e ∧ k + F.prec - 1 ≤ e := fun k hk => by
    have h1 := he k hk
    have h2 := F.one_lt_prec
    unfold gridExp at h1
    have h3 := F.emin_le k hk
    omega
  have hpow : (2 : ℝ) ^ (F.prec - 2) * (2 : ℝ) ^ (2 * e) ≤ 2 ^ F.prec * (2 : ℝ) ^ (2 * e) :=
    mul_le_mul_of_nonneg_right (pow_le_pow_right₀ (by norm_num) (by omega)) (two_zpow_pos _).le
  have l1 := C159_length s e (fun k hk => ⟨(hle k hk).1, (hle k hk).2.1⟩) hs hs' (hds.trans hpow)
  have l2 := C159_length t e (fun k hk => ⟨(hle k hk).1, (hle k hk).2.1⟩) ht ht' (hdt.trans hpow)
  rw [Fl.lt_iff, l1, l2]
  constructor
  · intro h
    by_contra hn
    exact absurd h (not_lt.2 (F.rounds.mono (not_lt.1 hn)))
  · intro h
    obtain ⟨n, hn⟩ := hs
    obtain ⟨m, hm⟩ := hs'
    obtain ⟨n', hn'⟩ := ht
    obtain ⟨m', hm'⟩ := ht'
    have h2 := pow_lt_pow_left₀ h (Real.sqrt_nonneg _) (two_ne_zero)
    rw [dist_sq_grid hm hn, dist_sq_grid hm' hn'] at h2
    rw [dist_sq_grid hm' hn'] at hdt
    rw [dist_grid hm hn, dist_grid hm' hn']
    refine rnd_sqrt_lt (Finset.sum_nonneg fun i _ => sq_nonneg _) ?_ ?_ fun k hk => (hle k hk).2.2
    · exact_mod_cast lt_of_mul_lt_mul_right h2 (two_zpow_pos _).le
    · exact_mod_cast le_of_mul_le_mul_right hdt (two_zpow_pos _)

/-- A computed difference has the sign of the difference. -/
theorem Fl.sub_sign (a b : Fl F) : (0 < (a - b).1 ↔ b.1 < a.1) ∧ ((a - b).1 = 0 ↔ a.1 = b.1) := by
  have hpos : ∀ a b : Fl F, b.1 < a.1 → 0 < (a - b).1 := fun a b h => by
    rw [Fl.val_sub]
    exact rnd_pos (sub_pos.2 h) fun k hk => gap_le h k hk
  have hneg : ∀ a b : Fl F, a.1 < b.1 → (a - b).1 < 0 := fun a b h => by
    have h1 := hpos b a h
    rw [Fl.val_sub] at h1 ⊢
    have := F.rounds.odd (b.1 - a.1)
    rw [neg_sub] at this
    linarith
  have hzero : ∀ a b : Fl F, a.1 = b.1 → (a - b).1 = 0 := fun a b h => by
    rw [Fl.val_sub, h, sub_self]; exact F.rounds.zero
  constructor
  · refine ⟨fun h => ?_, hpos a b⟩
    rcases lt_trichotomy a.1 b.1 with h1 | h1 | h1
    · linarith [hneg a b h1]
    · linarith [hzero a b h1]
    · exact h1
  · refine ⟨fun h => ?_, hzero a b⟩
    rcases lt_trichotomy a.1 b.1 with h1 | h1 | h1
    · linarith [hneg a b h1]
    · exact h1
    · linarith [hpos a b h1]

/-- **C159** A point and a sphere with integer coordinates and an integer radius: the computed signed distance is positive exactly for the points
outside, zero exactly for the points on the sphere (and negative otherwise). -/
theorem C159_side (v : Vec (Fl F) 3) (s : Sphere (Fl F)) (e : ℤ) (he : ∀ k, F.emin = some k → gridExp F.prec k ≤ e)
    (hv : ∃ n : Fin 3 → ℤ, ∀ i, (v i).1 = n i * (2 : ℝ) ^ e) (ho : ∃ n : Fin 3 → ℤ, ∀ i, (s.origin i).1 = n i * (2 : ℝ) ^ e)
    (r : ℤ) (hr0 : 0 ≤ r) (hr : s.radius.1 = r * (2 : ℝ) ^ e) (hr2 : r ^ 2 ≤ 2 ^ (F.prec - 2))
    (hd : Spec.dist (Fl.toReal v) (Fl.toReal s.origin) ^ 2 ≤ 2 ^ (F.prec - 2) * (2 : ℝ) ^ (2 * e)) :
    (0 < (signedDistSphere v s).1 ↔ s.radius.1 < Spec.dist (Fl.toReal v) (Fl.toReal s.origin)) ∧
    ((signedDistSphere v s).1 = 0 ↔ Spec.dist (Fl.toReal v) (Fl.toReal s.origin) = s.radius.1) ∧
    ((distSphere v s).1 = 0 ↔ Spec.dist (Fl.toReal v) (Fl.toReal s.origin) = s.radius.1) := by
  obtain ⟨n, hn⟩ := hv
  obtain ⟨m, hm⟩ := ho
  have hle : ∀ k, F.emin = some k → k ≤ e ∧ k ≤ 2 * e ∧ k + F.prec - 1 ≤ e := fun k hk => by
    have h1 := he k hk
    have h2 := F.one_lt_prec
    unfold gridExp at h1
    have h3 := F.emin_le k hk
    omega
  have hz : (2 : ℝ) ^ (2 * e) = 2 ^ e * 2 ^ e := by rw [two_mul, zpow_add₀ (by norm_num)]
  have hp := two_zpow_pos e
  have hpow : (2 : ℤ) ^ (F.prec - 2) ≤ 2 ^ F.prec := pow_le_pow_right₀ (by norm_num) (by omega)
  rw [dist_sq_grid hn hm] at hd
  have hN : ∑ i, (n i - m i) ^ 2 ≤ 2 ^ (F.prec - 2) := by exact_mod_cast le_of_mul_le_mul_right hd (two_zpow_pos _)
  have hN0 : 0 ≤ ∑ i, (n i - m i) ^ 2 := Finset.sum_nonneg fun i _ => sq_nonneg _
  have hlen := length_grid hn hm (hN.trans hpow) fun k hk => ⟨(hle k hk).1, (hle k hk).2.1⟩
  rw [dist_grid hn hm]
  set N := ∑ i, (n i - m i) ^ 2 with hNd
  -- the radius is the rounded root of its square
  have hroot : √(((r ^ 2 : ℤ) : ℝ) * 2 ^ (2 * e)) = s.radius.1 := by
    have hr0' : (0 : ℝ) ≤ r := by exact_mod_cast hr0
    rw [hr, hz, show ((r ^ 2 : ℤ) : ℝ) * (2 ^ e * 2 ^ e) = (r * (2 : ℝ) ^ e) ^ 2 by push_cast; ring, Real.sqrt_sq (by positivity)]
  have hrad : F.rnd (√(((r ^ 2 : ℤ) : ℝ) * 2 ^ (2 * e))) = s.radius.1 := by rw [hroot]; exact F.rounds.exact s.radius.2
  have hsq : ∀ {x y : ℤ}, 0 ≤ x → x < y → √((x : ℝ) * 2 ^ (2 * e)) < √((y : ℝ) * 2 ^ (2 * e)) := fun hx hxy =>
    Real.sqrt_lt_sqrt (mul_nonneg (by exact_mod_cast hx) (two_zpow_pos _).le) (mul_lt_mul_of_pos_right (by exact_mod_cast hxy) (two_zpow_pos _))
  have hrnd : ∀ {x y : ℤ}, 0 ≤ x → x < y → y ≤ 2 ^ (F.prec - 2) → F.rnd (√((x : ℝ) * 2 ^ (2 * e))) < F.rnd (√((y : ℝ) * 2 ^ (2 * e))) :=
    fun hx hxy hy => rnd_sqrt_lt hx hxy hy fun k hk => (hle k hk).2.2
  obtain ⟨s1, s2⟩ := Fl.sub_sign (length (vsub v s.origin)) s.radius
  have habs : (distSphere v s).1 = 0 ↔ (signedDistSphere v s).1 = 0 := by
    unfold distSphere
    rw [Fl.val_stdAbs, abs_eq_zero]
  rw [habs]
  have key : (0 < (signedDistSphere v s).1 ↔ s.radius.1 < √((N : ℝ) * 2 ^ (2 * e))) ∧ ((signedDistSphere v s).1 = 0 ↔ √((N : ℝ) * 2 ^ (2 * e)) = s.radius.1) := by
    have a1 : 0 < (signedDistSphere v s).1 ↔ s.radius.1 < (length (vsub v s.origin)).1 := s1
    have a2 : (signedDistSphere v s).1 = 0 ↔ (length (vsub v s.origin)).1 = s.radius.1 := s2
    rw [a1, a2, hlen]
    rcases lt_trichotomy N (r ^ 2) with h | h | h
    · have h1 := hsq hN0 h
      have h2 := hrnd hN0 h hr2
      rw [hroot] at h1
      rw [hrad] at h2
      exact ⟨iff_of_false (by linarith) (by linarith), iff_of_false h2.ne h1.ne⟩
    · rw [h, hrad, hroot]
      simp
    · have h1 := hsq (sq_nonneg r) h
      have h2 := hrnd (sq_nonneg r) h hN
      rw [hroot] at h1
      rw [hrad] at h2
      exact ⟨iff_of_true h2 h1, iff_of_false h2.ne' h1.ne'⟩
  exact ⟨key.1, key.2, key.2⟩

/-- **C159** `contains` decides exactly, if the tolerance `τ` of the comparison is less than a unit divided by `2 (2 r + 1)`: the tolerance lets no integer point
outside pass. -/
theorem C159_contains [Tol (Fl F)] (v : Vec (Fl F) 3) (s : Sphere (Fl F)) (e : ℤ) (he : ∀ k, F.emin = some k → gridExp F.prec k ≤ e)
    (hv : ∃ n : Fin 3 → ℤ, ∀ i, (v i).1 = n i * (2 : ℝ) ^ e) (ho : ∃ n : Fin 3 → ℤ, ∀ i, (s.origin i).1 = n i * (2 : ℝ) ^ e)
    (r : ℤ) (hr0 : 0 ≤ r) (hr : s.radius.1 = r * (2 : ℝ) ^ e) (hr2 : 4 * (r + 1) ^ 2 ≤ 2 ^ F.prec)
    (hd : Spec.dist (Fl.toReal v) (Fl.toReal s.origin) ^ 2 ≤ 2 ^ F.prec * (2 : ℝ) ^ (2 * e)) {τ : ℝ} (hτ : 2 * τ * (2 * r + 1) < 2 ^ e)
    (hle : ∀ x y : Fl F, x.1 ≤ y.1 → isGreater x y = false) (hgt : ∀ x y : Fl F, y.1 + τ < x.1 → isGreater x y = true) :
    s.contains v = true ↔ Spec.dist (Fl.toReal v) (Fl.toReal s.origin) ≤ s.radius.1 := by
  obtain ⟨n, hn⟩ := hv
  obtain ⟨m, hm⟩ := ho
  have hle' : ∀ k, F.emin = some k → k ≤ e ∧ k ≤ 2 * e ∧ k + F.prec - 1 ≤ e := fun k hk => by
    have h1 := he k hk
    have h2 := F.one_lt_prec
    unfold gridExp at h1
    have h3 := F.emin_le k hk
    omega
  have hz : (2 : ℝ) ^ (2 * e) = 2 ^ e * 2 ^ e := by rw [two_mul, zpow_add₀ (by norm_num)]
  have hp := two_zpow_pos e
  have hr0' : (0 : ℝ) ≤ r := by exact_mod_cast hr0
  rw [dist_sq_grid hn hm] at hd
  have hN : ∑ i, (n i - m i) ^ 2 ≤ 2 ^ F.prec := by exact_mod_cast le_of_mul_le_mul_right hd (two_zpow_pos _)
  have hlen := length_grid hn hm hN fun k hk => ⟨(hle' k hk).1, (hle' k hk).2.1⟩
  rw [dist_grid hn hm]
  set N := ∑ i, (n i - m i) ^ 2 with hNd
  unfold Sphere.contains
  constructor
  · intro h
    by_contra hn'
    push Not at hn'
    -- the squared distance is at least `r ^ 2 + 1`
    have hroot0 : s.radius.1 = √((r : ℝ) ^ 2 * 2 ^ (2 * e)) := by
      rw [hr, hz, show (r : ℝ) ^ 2 * (2 ^ e * 2 ^ e) = (r * (2 : ℝ) ^ e) ^ 2 by ring, Real.sqrt_sq (by positivity)]
    have hlt : r ^ 2 < N := by
      rw [hroot0] at hn'
      have := lt_of_mul_lt_mul_right ((Real.sqrt_lt_sqrt_iff (by positivity)).1 hn') (two_zpow_pos (2 * e)).le
      exact_mod_cast this
    have hge : √((r : ℝ) ^ 2 + 1) * 2 ^ e ≤ √((N : ℝ) * 2 ^ (2 * e)) := by
      rw [hz, ← mul_assoc, Real.sqrt_mul' _ hp.le, Real.sqrt_mul' _ hp.le, mul_assoc, Real.mul_self_sqrt hp.le]
      refine mul_le_mul_of_nonneg_right (Real.sqrt_le_sqrt ?_) hp.le
      exact_mod_cast hlt
    have hmono := F.rounds.mono hge
    rw [← hlen] at hmono
    set q := √((r : ℝ) ^ 2 + 1) with hq
    have hqq : q * q = r ^ 2 + 1 := Real.mul_self_sqrt (by positivity)
    have hq1 : 1 ≤ q := by rw [hq, Real.one_le_sqrt]; nlinarith
    have hqr : q ≤ r + 1 := by nlinarith
    have hrq : (r : ℝ) < q := by nlinarith
    have hsafe : Safe F.prec F.emin (q * 2 ^ e) := by
      right
      intro k hk
      rw [abs_of_nonneg (by positivity)]
      calc (2 : ℝ) ^ (k + F.prec - 1) ≤ 2 ^ e := zpow_le_zpow_right₀ (by norm_num) (hle' k hk).2.2
        _ ≤ q * 2 ^ e := by nlinarith
    have hlow := (F.rounds.bounds F.one_lt_prec hsafe (by positivity)).1
    set u := (2 : ℝ)⁻¹ ^ F.prec with hu
    have hu0 : 0 < u := by positivity
    have hu1 : 4 * (r + 1) ^ 2 * u ≤ 1 := by
      have h1 : (4 * (r + 1) ^ 2 : ℝ) ≤ 2 ^ F.prec := by exact_mod_cast hr2
      have h2 : (2 : ℝ) ^ F.prec * u = 1 := by rw [hu, ← mul_pow]; norm_num
      nlinarith [mul_le_mul_of_nonneg_right h1 hu0.le]
    -- the gap
    have hgap : 1 ≤ 2 * (2 * r + 1) * ((1 - u) * q - r) := by
      have h3 : (q - r) * (2 * r + 1) ≥ 1 := by nlinarith
      have h4 : u * q * (2 * r + 1) ≤ 1 / 2 := by
        have : u * q * (2 * r + 1) ≤ u * ((r + 1) * (2 * (r + 1))) := by
          rw [mul_assoc]
          exact mul_le_mul_of_nonneg_left (mul_le_mul hqr (by linarith) (by linarith) (by linarith)) hu0.le
        nlinarith
      nlinarith
    have hfin : s.radius.1 + τ < (length (vsub v s.origin)).1 := by
      rw [hr]
      have h5 : (0 : ℝ) < 2 * (2 * r + 1) := by linarith
      have h6 : 2 * (2 * (r : ℝ) + 1) * (τ) < 2 * (2 * r + 1) * (((1 - u) * q - r) * 2 ^ e) := by nlinarith
      have h7 := lt_of_mul_lt_mul_left h6 h5.le
      nlinarith
    rw [hgt _ _ hfin] at h
    exact absurd h (by simp)
  · intro h
    rw [hle _ _ (by rw [hlen]; exact (F.rounds.mono h).trans (F.rounds.exact s.radius.2).le)]
    rfl
end

section Examples
attribute [local instance] tol64

theorem p64_grid (a b c : ℤ) (ha : |a| < 2 ^ 53) (hb : |b| < 2 ^ 53) (hc : |c| < 2 ^ 53) : ∃ n : Fin 3 → ℤ, ∀ i, ((p64 a b c ha hb hc) i).1 = n i * (2 : ℝ) ^ (0 : ℤ) :=
  ⟨![a, b, c], fun i => by fin_cases i <;> simp [p64, fl64_val]⟩

theorem gridExp64 : ∀ k, binary64.emin = some k → gridExp binary64.prec k ≤ 0 := by
  intro k hk
  cases hk
  decide

theorem p64_real (a b c : ℤ) (ha : |a| < 2 ^ 53) (hb : |b| < 2 ^ 53) (hc : |c| < 2 ^ 53) : Fl.toReal (p64 a b c ha hb hc) = ![(a : ℝ), b, c] := by
  funext i
  fin_cases i <;> simp [Fl.toReal, p64, fl64_val]

/-- The diagonal of a cube with edge ten is rounded correctly ... -/
example : (⟨p64 0 0 0, p64 10 10 10⟩ : Segment (Fl binary64) 3).length.1 = binary64.rnd √300 := by
  have hd : Spec.dist (Fl.toReal (p64 10 10 10)) (Fl.toReal (p64 0 0 0)) = √300 := by
    rw [p64_real, p64_real]
    unfold Spec.dist
    congr 1
    simp [Fin.sum_univ_three]; norm_num
  have h := C159_length (⟨p64 0 0 0, p64 10 10 10⟩ : Segment (Fl binary64) 3) 0 (fun k hk => ⟨binary64.emin_le k hk, binary64.emin_le k hk⟩)
    (p64_grid _ _ _ _ _ _) (p64_grid _ _ _ _ _ _) (by
      rw [hd, Real.sq_sqrt (by norm_num)]
      show (300 : ℝ) ≤ 2 ^ 53 * 2 ^ (2 * 0 : ℤ)
      norm_num)
  rw [h, hd]

/-- ... and that of a box with the edges 2, 3, 6 is exact. -/
example : (⟨p64 1 2 3, p64 3 5 9⟩ : Segment (Fl binary64) 3).length.1 = 7 := by
  have h := C159_exact (⟨p64 1 2 3, p64 3 5 9⟩ : Segment (Fl binary64) 3) 0 (fun k hk => ⟨binary64.emin_le k hk, binary64.emin_le k hk⟩)
    (p64_grid _ _ _ _ _ _) (p64_grid _ _ _ _ _ _) 7 (by show (7 : ℤ) ^ 2 ≤ 2 ^ 53; norm_num) (by
      show Spec.dist (Fl.toReal (p64 3 5 9)) (Fl.toReal (p64 1 2 3)) = _
      rw [p64_real, p64_real, dist3 _ _ _ _ _ _ 7 (by norm_num) (by norm_num)]
      norm_num)
  rw [h]; norm_num

/-- The diagonal of the cube is longer. -/
example : (⟨p64 1 2 3, p64 3 5 9⟩ : Segment (Fl binary64) 3).length < (⟨p64 0 0 0, p64 10 10 10⟩ : Segment (Fl binary64) 3).length := by
  have d1 : Spec.dist (Fl.toReal (p64 10 10 10)) (Fl.toReal (p64 0 0 0)) = √300 := by
    rw [p64_real, p64_real]
    unfold Spec.dist
    congr 1
    simp [Fin.sum_univ_three]; norm_num
  have d2 : Spec.dist (Fl.toReal (p64 3 5 9)) (Fl.toReal (p64 1 2 3)) = 7 := by
    rw [p64_real, p64_real, dist3 _ _ _ _ _ _ 7 (by norm_num) (by norm_num)]
  refine (C159_order (⟨p64 1 2 3, p64 3 5 9⟩ : Segment (Fl binary64) 3) ⟨p64 0 0 0, p64 10 10 10⟩ 0 gridExp64 (p64_grid _ _ _ _ _ _) (p64_grid _ _ _ _ _ _)
    (p64_grid _ _ _ _ _ _) (p64_grid _ _ _ _ _ _) ?_ ?_).2 ?_
  · show Spec.dist (Fl.toReal (p64 3 5 9)) (Fl.toReal (p64 1 2 3)) ^ 2 ≤ 2 ^ 51 * 2 ^ (2 * 0 : ℤ)
    rw [d2]; norm_num
  · show Spec.dist (Fl.toReal (p64 10 10 10)) (Fl.toReal (p64 0 0 0)) ^ 2 ≤ 2 ^ 51 * 2 ^ (2 * 0 : ℤ)
    rw [d1, Real.sq_sqrt (by norm_num)]; norm_num
  · show Spec.dist (Fl.toReal (p64 3 5 9)) (Fl.toReal (p64 1 2 3)) < Spec.dist (Fl.toReal (p64 10 10 10)) (Fl.toReal (p64 0 0 0))
    rw [d1, d2, Real.lt_sqrt (by norm_num)]; norm_num

/-- The point (3, 5, 9) is on the sphere about (1, 2, 3) with radius 7 ... -/
example : (signedDistSphere (p64 3 5 9) ⟨p64 1 2 3, fl64 7⟩).1 = 0 := by
  have d2 : Spec.dist (Fl.toReal (p64 3 5 9)) (Fl.toReal (p64 1 2 3)) = 7 := by
    rw [p64_real, p64_real, dist3 _ _ _ _ _ _ 7 (by norm_num) (by norm_num)]
  refine (C159_side (p64 3 5 9) ⟨p64 1 2 3, fl64 7⟩ 0 gridExp64 (p64_grid _ _ _ _ _ _) (p64_grid _ _ _ _ _ _) 7 (by norm_num)
    (by show ((7 : ℤ) : ℝ) = _; norm_num) (by show (7 : ℤ) ^ 2 ≤ 2 ^ 51; norm_num) (by
      show Spec.dist (Fl.toReal (p64 3 5 9)) (Fl.toReal (p64 1 2 3)) ^ 2 ≤ 2 ^ 51 * 2 ^ (2 * 0 : ℤ)
      rw [d2]; norm_num)).2.1.2 ?_
  show Spec.dist (Fl.toReal (p64 3 5 9)) (Fl.toReal (p64 1 2 3)) = ((7 : ℤ) : ℝ)
  rw [d2]; norm_num

/-- ... and belongs to the ball. -/
example : (⟨p64 1 2 3, fl64 7⟩ : Sphere (Fl binary64)).contains (p64 3 5 9) = true := by
  have d2 : Spec.dist (Fl.toReal (p64 3 5 9)) (Fl.toReal (p64 1 2 3)) = 7 := by
    rw [p64_real, p64_real, dist3 _ _ _ _ _ _ 7 (by norm_num) (by norm_num)]
  refine (C159_contains (p64 3 5 9) ⟨p64 1 2 3, fl64 7⟩ 0 gridExp64 (p64_grid _ _ _ _ _ _) (p64_grid _ _ _ _ _ _) 7 (by norm_num)
    (by show ((7 : ℤ) : ℝ) = _; norm_num) (by show 4 * ((7 : ℤ) + 1) ^ 2 ≤ 2 ^ 53; norm_num) (by
      show Spec.dist (Fl.toReal (p64 3 5 9)) (Fl.toReal (p64 1 2 3)) ^ 2 ≤ 2 ^ 53 * 2 ^ (2 * 0 : ℤ)
      rw [d2]; norm_num) (τ := 1 / 10 ^ 6) (by norm_num) (fun x y h => ?_) (fun x y h => ?_)).2 ?_
  · show decide (y.1 < x.1 - 1 / 10 ^ 6) = false
    rw [decide_eq_false_iff_not]; linarith
  · show decide (y.1 < x.1 - 1 / 10 ^ 6) = true
    rw [decide_eq_true_iff]; linarith
  · show Spec.dist (Fl.toReal (p64 3 5 9)) (Fl.toReal (p64 1 2 3)) ≤ ((7 : ℤ) : ℝ)
    rw [d2]; norm_num
end Examples

end Verif
