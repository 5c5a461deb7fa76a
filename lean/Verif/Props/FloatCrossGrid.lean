import Verif.Props.FloatCross

set_option linter.unusedSectionVars false

/-
C98: for which segments the assertion in the intersection of 2D segments is known to hold in floating point.
-/
namespace Verif
open Spec

section
variable {F : FloatFormat}

/-- Multiples of `2^e` with few digits are not rounded. -/
theorem rnd_multiple {x : ℝ} (n e : ℤ) (hx : x = n * 2 ^ e) (hn : |n| ≤ 2 ^ F.prec) (he : ∀ m, F.emin = some m → m ≤ e) : F.rnd x = x := by
  rw [hx]; exact F.rounds.exact (Representable.of_le F.one_lt_prec hn he)

theorem abs_mul_le' {x y A B : ℤ} (hx : |x| ≤ A) (hy : |y| ≤ B) : |x * y| ≤ A * B := by
  rw [abs_mul]; exact mul_le_mul hx hy (abs_nonneg _) ((abs_nonneg _).trans hx)

theorem abs_sub_le' {x y A B : ℤ} (hx : |x| ≤ A) (hy : |y| ≤ B) : |x - y| ≤ A + B := (abs_sub _ _).trans (add_le_add hx hy)
theorem abs_add_le' {x y A B : ℤ} (hx : |x| ≤ A) (hy : |y| ≤ B) : |x + y| ≤ A + B := (abs_add_le _ _).trans (add_le_add hx hy)

/-- What is computed for segments whose coordinates are multiples of `2^e`, if the determinant is a power of two. -/
theorem grid_values (f g : Segment (Fl F) 2) {k j : ℕ} {e : ℤ} {a b c d : Fin 2 → ℤ} (hprec : 3 * k + 5 ≤ F.prec)
    (hmin : ∀ m, F.emin = some m → m ≤ 2 * e ∧ m ≤ e - (2 * k + 3) ∧ m ≤ -(2 * k + 3))
    (ha : ∀ i, (f.source i).1 = a i * 2 ^ e) (hb : ∀ i, (f.target i).1 = b i * 2 ^ e)
    (hc : ∀ i, (g.source i).1 = c i * 2 ^ e) (hd : ∀ i, (g.target i).1 = d i * 2 ^ e)
    (ba : ∀ i, |a i| ≤ 2 ^ k) (bb : ∀ i, |b i| ≤ 2 ^ k) (bc : ∀ i, |c i| ≤ 2 ^ k) (bd : ∀ i, |d i| ≤ 2 ^ k)
    (hdet : |(b 0 - a 0) * (d 1 - c 1) - (d 0 - c 0) * (b 1 - a 1)| = 2 ^ j) {D Nt Ns : ℤ}
    (hD : D = (b 0 - a 0) * (d 1 - c 1) - (d 0 - c 0) * (b 1 - a 1))
    (hNt : Nt = (c 0 - a 0) * (d 1 - c 1) - (c 1 - a 1) * (d 0 - c 0))
    (hNs : Ns = (b 0 - a 0) * -(c 1 - a 1) - (b 1 - a 1) * -(c 0 - a 0)) :
    let u := vsub f.target f.source
    let v := vsub g.target g.source
    let w := vsub g.source f.source
    let det := u 0 * v 1 - v 0 * u 1
    let t := (w 0 * v 1 - w 1 * v 0) / det
    let s := (u 0 * -w 1 - u 1 * -w 0) / det
    det.1 = D * 2 ^ (2 * e) ∧ t.1 = (Nt : ℝ) / D ∧ s.1 = (Ns : ℝ) / D ∧
      (∀ i, (vadd f.source (vscale u t) i).1 = (a i + (b i - a i) * ((Nt : ℝ) / D)) * 2 ^ e) ∧
      (∀ i, (vadd g.source (vscale v s) i).1 = (c i + (d i - c i) * ((Ns : ℝ) / D)) * 2 ^ e) := by
  intro u v w det t s
  set M : ℤ := 2 ^ k with hM
  have hM1 : 1 ≤ M := one_le_pow₀ (by norm_num)
  have hP : 32 * M ^ 3 ≤ 2 ^ F.prec := by
    calc 32 * M ^ 3 = 2 ^ (3 * k + 5) := by rw [hM]; ring
      _ ≤ 2 ^ F.prec := pow_le_pow_right₀ (by norm_num) hprec
  have hM2 : M ≤ M ^ 2 := by nlinarith
  have hM3 : M ^ 2 ≤ M ^ 3 := by nlinarith [sq_nonneg M]
  have he0 : ∀ m, F.emin = some m → m ≤ e := fun m hm => by have := hmin m hm; omega
  have he2 : ∀ m, F.emin = some m → m ≤ 2 * e := fun m hm => (hmin m hm).1
  have bu : ∀ i, |b i - a i| ≤ 2 * M := fun i => (abs_sub_le' (bb i) (ba i)).trans (by linarith)
  have bv : ∀ i, |d i - c i| ≤ 2 * M := fun i => (abs_sub_le' (bd i) (bc i)).trans (by linarith)
  have bw : ∀ i, |c i - a i| ≤ 2 * M := fun i => (abs_sub_le' (bc i) (ba i)).trans (by linarith)
  have bw' : ∀ i, |-(c i - a i)| ≤ 2 * M := fun i => by rw [abs_neg]; exact bw i
  have diff : ∀ (x y : Fl F) (m n : ℤ), x.1 = m * 2 ^ e → y.1 = n * 2 ^ e → |m - n| ≤ 2 * M → (x - y).1 = ((m - n : ℤ) : ℝ) * 2 ^ e := fun x y m n hx hy h => by
    rw [Fl.val_sub, rnd_multiple (m - n) e (by rw [hx, hy]; push_cast; ring) (h.trans (by linarith)) he0, hx, hy]; push_cast; ring
  have vu : ∀ i, (u i).1 = ((b i - a i : ℤ) : ℝ) * 2 ^ e := fun i => diff _ _ _ _ (hb i) (ha i) (bu i)
  have vv : ∀ i, (v i).1 = ((d i - c i : ℤ) : ℝ) * 2 ^ e := fun i => diff _ _ _ _ (hd i) (hc i) (bv i)
  have vw : ∀ i, (w i).1 = ((c i - a i : ℤ) : ℝ) * 2 ^ e := fun i => diff _ _ _ _ (hc i) (ha i) (bw i)
  have vw' : ∀ i, (-w i).1 = ((-(c i - a i) : ℤ) : ℝ) * 2 ^ e := fun i => by rw [Fl.val_neg, vw]; push_cast; ring
  have two : (2 : ℝ) ^ (2 * e) = 2 ^ e * 2 ^ e := by rw [two_mul, zpow_add₀ (by norm_num)]
  have prod : ∀ (x y : Fl F) (m n : ℤ), x.1 = m * 2 ^ e → y.1 = n * 2 ^ e → |m| ≤ 2 * M → |n| ≤ 2 * M → (x * y).1 = ((m * n : ℤ) : ℝ) * 2 ^ (2 * e) :=
    fun x y m n hx hy h1 h2 => by
      have e1 : x.1 * y.1 = ((m * n : ℤ) : ℝ) * 2 ^ (2 * e) := by rw [hx, hy, two]; push_cast; ring
      rw [Fl.val_mul, rnd_multiple (m * n) (2 * e) e1 ((abs_mul_le' h1 h2).trans (by nlinarith)) he2, e1]
  have minor : ∀ (x y z r : Fl F) (m n m' n' : ℤ), x.1 = m * 2 ^ e → y.1 = n * 2 ^ e → z.1 = m' * 2 ^ e → r.1 = n' * 2 ^ e →
      |m| ≤ 2 * M → |n| ≤ 2 * M → |m'| ≤ 2 * M → |n'| ≤ 2 * M →
      (x * y - z * r).1 = ((m * n - m' * n' : ℤ) : ℝ) * 2 ^ (2 * e) ∧ |m * n - m' * n'| ≤ 8 * M ^ 2 := fun x y z r m n m' n' hx hy hz hr h1 h2 h3 h4 => by
    have q : |m * n - m' * n'| ≤ 8 * M ^ 2 := (abs_sub_le' (abs_mul_le' h1 h2) (abs_mul_le' h3 h4)).trans (by nlinarith)
    have e1 : (x * y).1 - (z * r).1 = ((m * n - m' * n' : ℤ) : ℝ) * 2 ^ (2 * e) := by
      rw [prod x y m n hx hy h1 h2, prod z r m' n' hz hr h3 h4]; push_cast; ring
    exact ⟨by rw [Fl.val_sub, rnd_multiple _ _ e1 (q.trans (by linarith)) he2, e1], q⟩
  obtain ⟨v1, q1⟩ := minor (u 0) (v 1) (v 0) (u 1) _ _ _ _ (vu 0) (vv 1) (vv 0) (vu 1) (bu 0) (bv 1) (bv 0) (bu 1)
  obtain ⟨v2, q2⟩ := minor (w 0) (v 1) (w 1) (v 0) _ _ _ _ (vw 0) (vv 1) (vw 1) (vv 0) (bw 0) (bv 1) (bw 1) (bv 0)
  obtain ⟨v3, q3⟩ := minor (u 0) (-w 1) (u 1) (-w 0) _ _ _ _ (vu 0) (vw' 1) (vu 1) (vw' 0) (bu 0) (bw' 1) (bu 1) (bw' 0)
  rw [← hD] at v1 q1 hdet
  rw [← hNt] at v2 q2
  rw [← hNs] at v3 q3
  have hj : j ≤ 2 * k + 3 := by
    rw [hdet] at q1
    have : (2 : ℤ) ^ j ≤ 2 ^ (2 * k + 3) := q1.trans (le_of_eq (by rw [hM]; ring))
    exact (pow_le_pow_iff_right₀ (by norm_num)).1 this
  have hej : ∀ m, F.emin = some m → m ≤ e - j := fun m hm => by have := hmin m hm; omega
  have hjm : ∀ m, F.emin = some m → m ≤ -(j : ℤ) := fun m hm => by have := hmin m hm; omega
  obtain ⟨σ, hσ, hDσ⟩ : ∃ σ : ℤ, |σ| = 1 ∧ D = σ * 2 ^ j := by
    rcases abs_choice D with h | h
    · exact ⟨1, by norm_num, by rw [← hdet, h, one_mul]⟩
    · exact ⟨-1, by norm_num, by rw [← hdet, h]; ring⟩
  have hσ2 : (σ : ℝ) * σ = 1 := by
    have : σ * σ = 1 := by rw [← abs_mul_self, abs_mul, hσ]; norm_num
    exact_mod_cast this
  have hσ0 : (σ : ℝ) ≠ 0 := fun h => by rw [h] at hσ2; norm_num at hσ2
  have h2e : (2 : ℝ) ^ e ≠ 0 := (two_zpow_pos e).ne'
  have h2j : (2 : ℝ) ^ j ≠ 0 := by positivity
  have hDr : (D : ℝ) = σ * 2 ^ j := by rw [hDσ]; push_cast; ring
  have hD0 : (D : ℝ) ≠ 0 := by rw [hDr]; exact mul_ne_zero hσ0 h2j
  have quot : ∀ n : ℤ, (n : ℝ) / D = ((σ * n : ℤ) : ℝ) * 2 ^ (-(j : ℤ)) := fun n => by
    rw [zpow_neg, zpow_natCast, hDr, div_eq_iff (mul_ne_zero hσ0 h2j)]
    push_cast
    field_simp
    linear_combination (-(n : ℝ)) * hσ2
  have bσ : ∀ {n B : ℤ}, |n| ≤ B → |σ * n| ≤ B := fun {n B} h => by rw [abs_mul, hσ, one_mul]; exact h
  have divide : ∀ (x : Fl F) (n : ℤ), x.1 = n * 2 ^ (2 * e) → |n| ≤ 8 * M ^ 2 → (x / det).1 = (n : ℝ) / D := fun x n hx hn => by
    have e1 : x.1 / det.1 = (n : ℝ) / D := by
      rw [hx, v1, mul_div_mul_right _ _ (two_zpow_pos _).ne']
    rw [Fl.val_div, e1]
    exact rnd_multiple (σ * n) (-(j : ℤ)) (quot n) ((bσ hn).trans (by linarith)) hjm
  have vt := divide _ Nt v2 q2
  have vs := divide _ Ns v3 q3
  have hM0 : (0 : ℤ) ≤ M := by linarith
  have bj : (2 : ℤ) ^ j ≤ 8 * M ^ 2 := by rw [← hdet]; exact q1
  have point : ∀ (x y z : Fl F) (m n l : ℤ), x.1 = m * 2 ^ e → y.1 = n * 2 ^ e → z.1 = (l : ℝ) / D → |m| ≤ M → |n| ≤ 2 * M → |l| ≤ 8 * M ^ 2 →
      (x + y * z).1 = (m + n * ((l : ℝ) / D)) * 2 ^ e := fun x y z m n l hx hy hz h1 h2 h3 => by
    have ee : (2 : ℝ) ^ (e - j) = 2 ^ e * 2 ^ (-(j : ℤ)) := by rw [sub_eq_add_neg, zpow_add₀ (by norm_num)]
    have b1 : |n * (σ * l)| ≤ 16 * M ^ 3 := (abs_mul_le' h2 (bσ h3)).trans (by nlinarith)
    have e1 : y.1 * z.1 = ((n * (σ * l) : ℤ) : ℝ) * 2 ^ (e - j) := by
      rw [hy, hz, quot, ee]; push_cast; ring
    have e2 : (y * z).1 = y.1 * z.1 := by
      rw [Fl.val_mul]; exact rnd_multiple _ _ e1 (b1.trans (by nlinarith [pow_nonneg hM0 3])) hej
    have e3 : x.1 + (y * z).1 = ((m * 2 ^ j + n * (σ * l) : ℤ) : ℝ) * 2 ^ (e - j) := by
      rw [e2, e1, hx, ee, zpow_neg, zpow_natCast]; push_cast; field_simp
    have b2 : |m * 2 ^ j + n * (σ * l)| ≤ M * (8 * M ^ 2) + 16 * M ^ 3 :=
      abs_add_le' (abs_mul_le' h1 (by rw [abs_of_pos (by positivity)]; exact bj)) b1
    rw [Fl.val_add, rnd_multiple _ _ e3 (b2.trans (by nlinarith [pow_nonneg hM0 3])) hej, e2, hx, hy, hz]
    ring
  refine ⟨v1, vt, vs, fun i => ?_, fun i => ?_⟩
  · have := point (f.source i) (u i) t (a i) (b i - a i) Nt (ha i) (vu i) vt (ba i) (bu i) q2
    refine Eq.trans ?_ (this.trans (by push_cast; ring))
    rfl
  · have := point (g.source i) (v i) s (c i) (d i - c i) Ns (hc i) (vv i) vs (bc i) (bv i) q3
    refine Eq.trans ?_ (this.trans (by push_cast; ring))
    rfl

/-- ... and what is returned: the assertion compares equal points. -/
theorem grid_eval [Tol (Fl F)] (f g : Segment (Fl F) 2) (eps : Fl F) {k j : ℕ} {e : ℤ} {a b c d : Fin 2 → ℤ} (hprec : 3 * k + 5 ≤ F.prec)
    (hmin : ∀ m, F.emin = some m → m ≤ 2 * e ∧ m ≤ e - (2 * k + 3) ∧ m ≤ -(2 * k + 3))
    (ha : ∀ i, (f.source i).1 = a i * 2 ^ e) (hb : ∀ i, (f.target i).1 = b i * 2 ^ e)
    (hc : ∀ i, (g.source i).1 = c i * 2 ^ e) (hd : ∀ i, (g.target i).1 = d i * 2 ^ e)
    (ba : ∀ i, |a i| ≤ 2 ^ k) (bb : ∀ i, |b i| ≤ 2 ^ k) (bc : ∀ i, |c i| ≤ 2 ^ k) (bd : ∀ i, |d i| ≤ 2 ^ k)
    (hdet : |(b 0 - a 0) * (d 1 - c 1) - (d 0 - c 0) * (b 1 - a 1)| = 2 ^ j) {D Nt Ns : ℤ}
    (hD : D = (b 0 - a 0) * (d 1 - c 1) - (d 0 - c 0) * (b 1 - a 1))
    (hNt : Nt = (c 0 - a 0) * (d 1 - c 1) - (c 1 - a 1) * (d 0 - c 0))
    (hNs : Ns = (b 0 - a 0) * -(c 1 - a 1) - (b 1 - a 1) * -(c 0 - a 0)) :
    ∃ (det t s : Fl F) (p : Vec (Fl F) 2), det.1 = D * 2 ^ (2 * e) ∧ t.1 = (Nt : ℝ) / D ∧ s.1 = (Ns : ℝ) / D ∧
      (∀ i, (p i).1 = (a i + (b i - a i) * ((Nt : ℝ) / D)) * 2 ^ e) ∧
      ∀ dbg, intersectSegment2 dbg f g eps = if Tol.isZero det eps then .ok none else
        if Tol.isLess s 0 eps || Tol.isGreater s 1 eps || Tol.isLess t 0 eps || Tol.isGreater t 1 eps then .ok none else .ok (some p) := by
  obtain ⟨h1, h2, h3, h4, h5⟩ := grid_values f g hprec hmin ha hb hc hd ba bb bc bd hdet hD hNt hNs
  have hD0 : (D : ℝ) ≠ 0 := by
    intro h
    rw [Int.cast_eq_zero] at h
    rw [← hD, h, abs_zero] at hdet
    exact absurd hdet.symm (by positivity)
  set t := (vsub g.source f.source 0 * vsub g.target g.source 1 - vsub g.source f.source 1 * vsub g.target g.source 0) /
    (vsub f.target f.source 0 * vsub g.target g.source 1 - vsub g.target g.source 0 * vsub f.target f.source 1) with ht
  set s := (vsub f.target f.source 0 * -vsub g.source f.source 1 - vsub f.target f.source 1 * -vsub g.source f.source 0) /
    (vsub f.target f.source 0 * vsub g.target g.source 1 - vsub g.target g.source 0 * vsub f.target f.source 1) with hs
  have heq : ∀ i, vadd f.source (vscale (vsub f.target f.source) t) i = vadd g.source (vscale (vsub g.target g.source) s) i := by
    intro i
    refine Fl.ext ?_
    rw [h4 i, h5 i]
    congr 1
    rw [mul_div_assoc', mul_div_assoc', add_div' _ _ _ hD0, add_div' _ _ _ hD0, hD, hNt, hNs]
    congr 1
    fin_cases i <;> (push_cast; ring)
  refine ⟨_, t, s, _, h1, h2, h3, h4, fun dbg => ?_⟩
  unfold intersectSegment2
  dsimp only
  rw [← ht, ← hs, heq 0, heq 1, decide_eq_true rfl, decide_eq_true rfl]
  cases dbg <;> rfl

/-- **C98 (partial)** If the coordinates are integers up to `2^k` in some power of two as unit, the format has `3k + 5` binary digits
(`k = 16` for `double`, 6 for `float`) and the determinant of the directions is, in that unit, a power of two up to the sign, then debug
and release build agree: the assertion holds.  Whether the segments cross does not matter, and nothing is assumed of the tolerances. -/
theorem C98_grid_partial [Tol (Fl F)] (f g : Segment (Fl F) 2) (eps : Fl F) {k j : ℕ} {e : ℤ} {a b c d : Fin 2 → ℤ} (hprec : 3 * k + 5 ≤ F.prec)
    (hmin : ∀ m, F.emin = some m → m ≤ 2 * e ∧ m ≤ e - (2 * k + 3) ∧ m ≤ -(2 * k + 3))
    (ha : ∀ i, (f.source i).1 = a i * 2 ^ e) (hb : ∀ i, (f.target i).1 = b i * 2 ^ e)
    (hc : ∀ i, (g.source i).1 = c i * 2 ^ e) (hd : ∀ i, (g.target i).1 = d i * 2 ^ e)
    (ba : ∀ i, |a i| ≤ 2 ^ k) (bb : ∀ i, |b i| ≤ 2 ^ k) (bc : ∀ i, |c i| ≤ 2 ^ k) (bd : ∀ i, |d i| ≤ 2 ^ k)
    (hdet : |(b 0 - a 0) * (d 1 - c 1) - (d 0 - c 0) * (b 1 - a 1)| = 2 ^ j) :
    ∃ r, ∀ dbg, intersectSegment2 dbg f g eps = .ok r := by
  obtain ⟨det, t, s, p, -, -, -, -, h⟩ := grid_eval f g eps hprec hmin ha hb hc hd ba bb bc bd hdet rfl rfl rfl
  by_cases h1 : Tol.isZero det eps = true
  · exact ⟨none, fun dbg => by rw [h, if_pos h1]⟩
  by_cases h2 : (Tol.isLess s 0 eps || Tol.isGreater s 1 eps || Tol.isLess t 0 eps || Tol.isGreater t 1 eps) = true
  · exact ⟨none, fun dbg => by rw [h, if_neg h1, if_pos h2]⟩
  · exact ⟨some p, fun dbg => by rw [h, if_neg h1, if_neg h2]⟩

/-- **C98 (partial)** If moreover the segments cross in `q`, both builds return `q` itself, without any error. -/
theorem C98_exact_partial [Tol (Fl F)] (f g : Segment (Fl F) 2) (eps : Fl F) {k j : ℕ} {e : ℤ} {a b c d : Fin 2 → ℤ} {q : Fin 2 → ℝ}
    (hprec : 3 * k + 5 ≤ F.prec)
    (hmin : ∀ m, F.emin = some m → m ≤ 2 * e ∧ m ≤ e - (2 * k + 3) ∧ m ≤ -(2 * k + 3))
    (ha : ∀ i, (f.source i).1 = a i * 2 ^ e) (hb : ∀ i, (f.target i).1 = b i * 2 ^ e)
    (hc : ∀ i, (g.source i).1 = c i * 2 ^ e) (hd : ∀ i, (g.target i).1 = d i * 2 ^ e)
    (ba : ∀ i, |a i| ≤ 2 ^ k) (bb : ∀ i, |b i| ≤ 2 ^ k) (bc : ∀ i, |c i| ≤ 2 ^ k) (bd : ∀ i, |d i| ≤ 2 ^ k)
    (hdet : |(b 0 - a 0) * (d 1 - c 1) - (d 0 - c 0) * (b 1 - a 1)| = 2 ^ j)
    (hqf : q ∈ Spec.segment (Fl.vals f.source) (Fl.vals f.target)) (hqg : q ∈ Spec.segment (Fl.vals g.source) (Fl.vals g.target))
    (hz : ∀ x : Fl F, |x.1| = 2 ^ j * 2 ^ (2 * e) → Tol.isZero x eps = false)
    (hs : ∀ x : Fl F, 0 ≤ x.1 → x.1 ≤ 1 → Tol.isLess x 0 eps = false ∧ Tol.isGreater x 1 eps = false) :
    ∃ p, (∀ i, (p i).1 = q i) ∧ ∀ dbg, intersectSegment2 dbg f g eps = .ok (some p) := by
  obtain ⟨det, t, s, p, h1, h2, h3, h4, h⟩ := grid_eval f g eps hprec hmin ha hb hc hd ba bb bc bd hdet rfl rfl rfl
  obtain ⟨τ, τ0, τ1, rfl⟩ := hqf
  obtain ⟨ς, ς0, ς1, hq⟩ := hqg
  have h2e : (2 : ℝ) ^ e ≠ 0 := (two_zpow_pos e).ne'
  have hi : ∀ i, (a i : ℝ) + τ * (b i - a i) = c i + ς * (d i - c i) := fun i => by
    have := congrFun hq i
    simp only [Fl.vals, ha, hb, hc, hd] at this
    refine mul_right_cancel₀ h2e ?_
    linear_combination this
  set D : ℤ := (b 0 - a 0) * (d 1 - c 1) - (d 0 - c 0) * (b 1 - a 1) with hD
  have hDr : (D : ℝ) = (b 0 - a 0) * (d 1 - c 1) - (d 0 - c 0) * (b 1 - a 1) := by rw [hD]; push_cast; ring
  have hD0 : (D : ℝ) ≠ 0 := by
    intro h
    rw [Int.cast_eq_zero] at h
    rw [h, abs_zero] at hdet
    exact absurd hdet.symm (by positivity)
  have ht : t.1 = τ := by
    rw [h2, div_eq_iff hD0, hDr]
    push_cast
    linear_combination (d 1 - c 1 : ℝ) * (-hi 0) + (d 0 - c 0 : ℝ) * hi 1
  have hs' : s.1 = ς := by
    rw [h3, div_eq_iff hD0, hDr]
    push_cast
    linear_combination (b 1 - a 1 : ℝ) * (-hi 0) + (b 0 - a 0 : ℝ) * hi 1
  refine ⟨p, fun i => ?_, fun dbg => ?_⟩
  · rw [h4, ← h2, ht]
    simp only [Fl.vals, ha, hb]
    ring
  · rw [h, hz det (by rw [h1, abs_mul, abs_of_pos (two_zpow_pos _)]; congr 1; exact_mod_cast hdet), (hs t (by rw [ht]; exact τ0) (by rw [ht]; exact τ1)).1,
      (hs t (by rw [ht]; exact τ0) (by rw [ht]; exact τ1)).2, (hs s (by rw [hs']; exact ς0) (by rw [hs']; exact ς1)).1,
      (hs s (by rw [hs']; exact ς0) (by rw [hs']; exact ς1)).2]
    rfl

/-- `49 * (1 / 49)` is not 1 in `double`. -/
theorem rnd_49 (hp : F.prec = 53) (hemin : ∀ m, F.emin = some m → m ≤ -58) : F.rnd (49 * F.rnd (1 / 49)) ≠ 1 := by
  have hrep : ∀ n e : ℤ, |n| ≤ 2 ^ 53 → -58 ≤ e → Representable F.prec F.emin (n * 2 ^ e) := fun n e hn he =>
    Representable.of_le F.one_lt_prec (by rw [hp]; exact hn) fun m hm => (hemin m hm).trans he
  set y := F.rnd (1 / 49) with hy
  have hlow : 1 / 64 ≤ y := by
    have h64 : F.rnd (1 / 64) = 1 / 64 := F.rounds.exact (by
      have := hrep 1 (-6) (by norm_num) (by norm_num)
      rwa [show ((1 : ℤ) : ℝ) * 2 ^ (-6 : ℤ) = 1 / 64 by norm_num] at this)
    rw [← h64]; exact F.rounds.mono (by norm_num)
  have yr : Representable F.prec F.emin y := F.rounds.mem _
  obtain ⟨n, hn⟩ : ∃ n : ℤ, 16 * y * 2 ^ (53 + 1) = n := by
    have h16 : Representable F.prec F.emin (16 * y) := by
      obtain ⟨m, e, hm, he, hme⟩ := yr
      refine ⟨m, e + 4, hm, fun k hk => (he k hk).trans (by omega), ?_⟩
      rw [hme, zpow_add₀ (by norm_num)]; norm_num; ring
    have := Representable.on_grid h16 (by linarith)
    rwa [hp] at this
  have hy' : y = n / 2 ^ 58 := by
    rw [eq_div_iff (by positivity), ← hn]; norm_num; ring
  have hnear := F.rounds.nearest (1 / 49) _ (hrep 5882252574524729 (-58) (by norm_num) le_rfl)
  rw [← hy, hy'] at hnear
  have hn1 : n = 5882252574524729 := by
    rw [abs_le] at hnear
    have hv : |((5882252574524729 : ℤ) : ℝ) * 2 ^ (-58 : ℤ) - 1 / 49| = 23 / 49 / 2 ^ 58 := by
      rw [abs_of_neg (by norm_num)]; norm_num
    rw [hv] at hnear
    obtain ⟨l1, l2⟩ := hnear
    have g1 : (n : ℝ) < 5882252574524729 + 1 := by
      have : (n : ℝ) / 2 ^ 58 < (5882252574524729 + 1) / 2 ^ 58 := by
        refine lt_of_le_of_lt (sub_le_iff_le_add.1 l2) (by norm_num)
      exact (div_lt_div_iff_of_pos_right (by positivity)).1 this
    have g2 : (5882252574524729 : ℝ) - 1 < n := by
      have : ((5882252574524729 : ℝ) - 1) / 2 ^ 58 < (n : ℝ) / 2 ^ 58 := by
        refine lt_of_lt_of_le ?_ (le_sub_iff_add_le.1 l1) 
        norm_num
      exact (div_lt_div_iff_of_pos_right (by positivity)).1 this
    have g1' : n < 5882252574524729 + 1 := by exact_mod_cast g1
    have g2' : 5882252574524729 - 1 < n := by exact_mod_cast g2
    omega
  intro h1
  have hnear2 := F.rounds.nearest (49 * y) _ (hrep (2 ^ 53 - 1) (-53) (by norm_num) (by norm_num))
  rw [h1, hy', hn1, abs_of_pos (by norm_num), abs_of_neg (by norm_num)] at hnear2
  norm_num at hnear2

/-- **C98 (as stated: false)** Integer coordinates alone are not enough, nor are segments parallel to the axes: in every format with the 53
digits of `double` the debug build aborts on the segments from (0, 0) to (49, 0) and from (1, -1) to (1, 1), which cross in (1, 0). -/
theorem C98_axis_counterexample [Tol (Fl F)] (eps : Fl F) (hp : F.prec = 53) (hemin : ∀ m, F.emin = some m → m ≤ -58) (f g : Segment (Fl F) 2)
    (hf : Fl.vals f.source = ![0, 0] ∧ Fl.vals f.target = ![49, 0]) (hg : Fl.vals g.source = ![1, -1] ∧ Fl.vals g.target = ![1, 1])
    (hz : ∀ x : Fl F, x.1 = 98 → Tol.isZero x eps = false)
    (hs : ∀ x : Fl F, 1 / 64 ≤ x.1 → x.1 ≤ 1 / 2 → Tol.isLess x 0 eps = false ∧ Tol.isGreater x 1 eps = false) :
    ![1, 0] ∈ Spec.segment (Fl.vals f.source) (Fl.vals f.target) ∧ ![1, 0] ∈ Spec.segment (Fl.vals g.source) (Fl.vals g.target) ∧
    intersectSegment2 true f g eps = .error .assertFailed := by
  obtain ⟨hf1, hf2⟩ := hf
  obtain ⟨hg1, hg2⟩ := hg
  refine ⟨⟨1 / 49, by norm_num, by norm_num, ?_⟩, ⟨1 / 2, by norm_num, by norm_num, ?_⟩, ?_⟩
  · rw [hf1, hf2]; funext i; fin_cases i <;> simp
  · rw [hg1, hg2]; funext i; fin_cases i <;> simp
    norm_num
  have hrep : ∀ n e : ℤ, |n| ≤ 2 ^ 53 → -58 ≤ e → Representable F.prec F.emin (n * 2 ^ e) := fun n e hn he =>
    Representable.of_le F.one_lt_prec (by rw [hp]; exact hn) fun m hm => (hemin m hm).trans he
  have hint : ∀ n : ℤ, |n| ≤ 2 ^ 53 → F.rnd n = n := fun n hn => F.rounds.exact (by
    have := hrep n 0 hn (by norm_num)
    rwa [zpow_zero, mul_one] at this)
  have half : F.rnd (1 / 2) = 1 / 2 := F.rounds.exact (by
    have := hrep 1 (-1) (by norm_num) (by norm_num)
    rwa [show ((1 : ℤ) : ℝ) * 2 ^ (-1 : ℤ) = 1 / 2 by norm_num] at this)
  have h64 : F.rnd (1 / 64) = 1 / 64 := F.rounds.exact (by
    have := hrep 1 (-6) (by norm_num) (by norm_num)
    rwa [show ((1 : ℤ) : ℝ) * 2 ^ (-6 : ℤ) = 1 / 64 by norm_num] at this)
  have r0 : F.rnd 0 = 0 := F.rounds.zero
  have r1 : F.rnd 1 = 1 := by simpa using hint 1 (by norm_num)
  have r1' : F.rnd (-1) = -1 := by rw [F.rounds.odd, r1]
  have r2 : F.rnd 2 = 2 := by simpa using hint 2 (by norm_num)
  have r49 : F.rnd 49 = 49 := by simpa using hint 49 (by norm_num)
  have r98 : F.rnd 98 = 98 := by simpa using hint 98 (by norm_num)
  have y1 : 1 / 64 ≤ F.rnd (1 / 49) := by rw [← h64]; exact F.rounds.mono (by norm_num)
  have y2 : F.rnd (1 / 49) ≤ 1 / 2 := by rw [← half]; exact F.rounds.mono (by norm_num)
  have c : ∀ {v : Vec (Fl F) 2} {x y : ℝ}, Fl.vals v = ![x, y] → (v 0).1 = x ∧ (v 1).1 = y := fun {v x y} h => ⟨congrFun h 0, congrFun h 1⟩
  obtain ⟨a0, a1⟩ := c hf1
  obtain ⟨b0, b1⟩ := c hf2
  obtain ⟨c0, c1⟩ := c hg1
  obtain ⟨d0, d1⟩ := c hg2
  have u0 : (vsub f.target f.source 0).1 = 49 := by simp only [vsub, Fl.val_sub, a0, b0, sub_zero, r49]
  have u1 : (vsub f.target f.source 1).1 = 0 := by simp only [vsub, Fl.val_sub, a1, b1, sub_zero, r0]
  have v0 : (vsub g.target g.source 0).1 = 0 := by simp only [vsub, Fl.val_sub, c0, d0, sub_self, r0]
  have v1 : (vsub g.target g.source 1).1 = 2 := by
    simp only [vsub, Fl.val_sub, c1, d1]
    rw [show (1 - -1 : ℝ) = 2 by norm_num, r2]
  have w0 : (vsub g.source f.source 0).1 = 1 := by simp only [vsub, Fl.val_sub, a0, c0, sub_zero, r1]
  have w1 : (vsub g.source f.source 1).1 = -1 := by simp only [vsub, Fl.val_sub, a1, c1, sub_zero, r1']
  have hdet : (vsub f.target f.source 0 * vsub g.target g.source 1 - vsub g.target g.source 0 * vsub f.target f.source 1).1 = 98 := by
    rw [Fl.val_sub, Fl.val_mul, Fl.val_mul, u0, u1, v0, v1, mul_zero, r0, show (49 * 2 : ℝ) = 98 by norm_num, r98, sub_zero, r98]
  set D := vsub f.target f.source 0 * vsub g.target g.source 1 - vsub g.target g.source 0 * vsub f.target f.source 1 with hD
  have ht : ((vsub g.source f.source 0 * vsub g.target g.source 1 - vsub g.source f.source 1 * vsub g.target g.source 0) / D).1 = F.rnd (1 / 49) := by
    rw [Fl.val_div, hdet, Fl.val_sub, Fl.val_mul, Fl.val_mul, w0, w1, v0, v1, mul_zero, one_mul, r0, r2, sub_zero, r2]
    norm_num
  have hs' : ((vsub f.target f.source 0 * -vsub g.source f.source 1 - vsub f.target f.source 1 * -vsub g.source f.source 0) / D).1 = 1 / 2 := by
    rw [Fl.val_div, hdet, Fl.val_sub, Fl.val_mul, Fl.val_mul, Fl.val_neg, Fl.val_neg, w0, w1, u0, u1, neg_neg, mul_one, zero_mul, r0, r49,
      sub_zero, r49, show (49 / 98 : ℝ) = 1 / 2 by norm_num, half]
  set t := (vsub g.source f.source 0 * vsub g.target g.source 1 - vsub g.source f.source 1 * vsub g.target g.source 0) / D with htdef
  set s := (vsub f.target f.source 0 * -vsub g.source f.source 1 - vsub f.target f.source 1 * -vsub g.source f.source 0) / D with hsdef
  have t1 := hs t (by rw [ht]; exact y1) (by rw [ht]; exact y2)
  have s1 := hs s (by rw [hs']; norm_num) (by rw [hs'])
  have hne : ¬ vadd f.source (vscale (vsub f.target f.source) t) 0 = vadd g.source (vscale (vsub g.target g.source) s) 0 := by
    intro h
    have h8 := congrArg Subtype.val h
    have e1 : (vadd f.source (vscale (vsub f.target f.source) t) 0).1
        = F.rnd ((f.source 0).1 + F.rnd ((vsub f.target f.source 0).1 * t.1)) := rfl
    have e2 : (vadd g.source (vscale (vsub g.target g.source) s) 0).1
        = F.rnd ((g.source 0).1 + F.rnd ((vsub g.target g.source 0).1 * s.1)) := rfl
    rw [e1, e2, a0, c0, u0, v0, ht, zero_mul, r0, add_zero, r1, zero_add, F.rounds.exact (F.rounds.mem _)] at h8
    exact rnd_49 hp hemin h8
  set P := vadd f.source (vscale (vsub f.target f.source) t) with hP
  set Q := vadd g.source (vscale (vsub g.target g.source) s) with hQ
  have e : intersectSegment2 true f g eps = if Tol.isZero D eps then .ok none else
      if Tol.isLess s 0 eps || Tol.isGreater s 1 eps || Tol.isLess t 0 eps || Tol.isGreater t 1 eps then .ok none
      else geoAssert true (decide (P 0 = Q 0) && decide (P 1 = Q 1)) >>= fun _ => .ok (some P) := rfl
  rw [e, hz D hdet, t1.1, t1.2, s1.1, s1.2, decide_eq_false hne, Bool.false_and]
  rfl
end

section Examples
attribute [local instance] tol64

/-- A point of the plane with integer coordinates. -/
noncomputable def pt64 (x y : ℤ) (hx : |x| < 2 ^ 53 := by norm_num) (hy : |y| < 2 ^ 53 := by norm_num) : Vec (Fl binary64) 2 := ![fl64 x hx, fl64 y hy]

theorem pt64_vals (x y : ℤ) (hx : |x| < 2 ^ 53) (hy : |y| < 2 ^ 53) : Fl.vals (pt64 x y hx hy) = ![(x : ℝ), (y : ℝ)] := by
  funext i; fin_cases i <;> rfl

theorem pt64_grid (x y : ℤ) (hx : |x| < 2 ^ 53) (hy : |y| < 2 ^ 53) (i : Fin 2) : (pt64 x y hx hy i).1 = ((![x, y] : Fin 2 → ℤ) i : ℝ) * 2 ^ (0 : ℤ) := by
  fin_cases i <;> (rw [zpow_zero, mul_one]; rfl)

theorem grid64 : ∀ m, binary64.emin = some m → m ≤ 2 * 0 ∧ m ≤ 0 - (2 * ((4 : ℕ) : ℤ) + 3) ∧ m ≤ -(2 * ((4 : ℕ) : ℤ) + 3) := fun m hm => by
  obtain rfl : m = -1074 := (Option.some.inj hm).symm
  norm_num

theorem cross64_zero (x : Fl binary64) (h : |x.1| = 2 ^ 5 * 2 ^ (2 * (0 : ℤ))) : Tol.isZero x Tol.eps = false := by
  show decide (|x.1| < 1 / 10 ^ 6) = false
  rw [h]; norm_num

theorem cross64_unit (x : Fl binary64) (h0 : 0 ≤ x.1) (h1 : x.1 ≤ 1) : Tol.isLess x 0 Tol.eps = false ∧ Tol.isGreater x 1 Tol.eps = false := by
  refine ⟨decide_eq_false ?_, decide_eq_false ?_⟩
  · show ¬ x.1 < 0 - 1 / 10 ^ 6
    linarith
  · show ¬ (1 : ℝ) < x.1 - 1 / 10 ^ 6
    linarith

/-- C98: the segments from (0, 0) to (5, 3) and from (1, 3) to (5, -1), of determinant -32. -/
example : ∃ r, ∀ dbg, intersectSegment2 dbg (⟨pt64 0 0, pt64 5 3⟩ : Segment (Fl binary64) 2) ⟨pt64 1 3, pt64 5 (-1)⟩ = .ok r :=
  C98_grid_partial _ _ _ (k := 4) (j := 5) (by show _ ≤ 53; norm_num) grid64 (pt64_grid _ _ _ _) (pt64_grid _ _ _ _) (pt64_grid _ _ _ _) (pt64_grid _ _ _ _)
    (by intro i; fin_cases i <;> simp) (by intro i; fin_cases i <;> simp) (by intro i; fin_cases i <;> simp) (by intro i; fin_cases i <;> simp) (by simp)

/-- They cross in (5/2, 3/2), which is found in both builds. -/
example : ∃ p, (∀ i, (p i).1 = (![5 / 2, 3 / 2] : Fin 2 → ℝ) i) ∧
    ∀ dbg, intersectSegment2 dbg (⟨pt64 0 0, pt64 5 3⟩ : Segment (Fl binary64) 2) ⟨pt64 1 3, pt64 5 (-1)⟩ = .ok (some p) :=
  C98_exact_partial _ _ _ (k := 4) (j := 5) (by show _ ≤ 53; norm_num) grid64 (pt64_grid _ _ _ _) (pt64_grid _ _ _ _) (pt64_grid _ _ _ _) (pt64_grid _ _ _ _)
    (by intro i; fin_cases i <;> simp) (by intro i; fin_cases i <;> simp) (by intro i; fin_cases i <;> simp) (by intro i; fin_cases i <;> simp) (by simp)
    ⟨1 / 2, by norm_num, by norm_num, by rw [pt64_vals, pt64_vals]; funext i; fin_cases i <;> (simp; try norm_num)⟩
    ⟨3 / 8, by norm_num, by norm_num, by rw [pt64_vals, pt64_vals]; funext i; fin_cases i <;> (simp; try norm_num)⟩ cross64_zero cross64_unit

/-- The segments from (0, 0) to (49, 0) and from (1, -1) to (1, 1) in `double`. -/
example : intersectSegment2 true (⟨pt64 0 0, pt64 49 0⟩ : Segment (Fl binary64) 2) ⟨pt64 1 (-1), pt64 1 1⟩ = .error .assertFailed :=
  (C98_axis_counterexample _ rfl
    (fun m hm => by
      obtain rfl : m = -1074 := (Option.some.inj hm).symm
      norm_num) _ _ ⟨by rw [pt64_vals]; simp, by rw [pt64_vals]; simp⟩ ⟨by rw [pt64_vals]; simp, by rw [pt64_vals]; simp⟩
    (fun x hx => by
      show decide (|x.1| < 1 / 10 ^ 6) = false
      rw [hx]; norm_num) fun x h1 h2 => cross64_unit x (by linarith) (by linarith)).2.2
end Examples
end Verif
