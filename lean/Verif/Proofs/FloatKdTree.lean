import Verif.Proofs.Float
import Verif.Props.KdTree

set_option linter.unusedSectionVars false

/-
`KdTree::distance` in floating point arithmetic.
-/
namespace Verif
open Spec KdNode

namespace Fl
variable {F : FloatFormat}

@[simp] theorem val_zero : (0 : Fl F).1 = 0 := rfl
@[simp] theorem val_add (a b : Fl F) : (a + b).1 = F.rnd (a.1 + b.1) := rfl
@[simp] theorem val_sub (a b : Fl F) : (a - b).1 = F.rnd (a.1 - b.1) := rfl
@[simp] theorem val_mul (a b : Fl F) : (a * b).1 = F.rnd (a.1 * b.1) := rfl
@[simp] theorem val_neg (a : Fl F) : (-a).1 = -a.1 := rfl
@[simp] theorem val_sqrt (a : Fl F) : (HasSqrt.sqrt a).1 = F.rnd (Real.sqrt a.1) := rfl
theorem lt_iff (a b : Fl F) : a < b ↔ a.1 < b.1 := Iff.rfl
theorem le_iff (a b : Fl F) : a ≤ b ↔ a.1 ≤ b.1 := Iff.rfl
theorem ext {a b : Fl F} (h : a.1 = b.1) : a = b := Subtype.ext h

theorem val_stdAbs (a : Fl F) : (stdAbs a).1 = |a.1| := by
  unfold stdAbs
  by_cases h : a < 0
  · rw [if_pos h, val_neg, abs_of_neg ((lt_iff a 0).1 h)]
  · rw [if_neg h, abs_of_nonneg (not_lt.1 ((lt_iff a 0).not.1 h))]

/-- The real number a floating point number stands for, coordinate by coordinate. -/
def toReal {D : Nat} (v : Vec (Fl F) D) : Fin D → ℝ := fun i => (v i).1

end Fl

section
variable {p : ℕ} {emin : Option ℤ} {rnd : ℝ → ℝ}

theorem _root_.Verif.Spec.OnGrid.sub {x y : ℝ} (hx : OnGrid p emin x) (hy : OnGrid p emin y) :
    x - y = 0 ∨ ∀ k, emin = some k → (2 : ℝ) ^ gridExp p k ≤ |x - y| := by
  by_cases h : x - y = 0
  · exact .inl h
  · refine .inr fun k hk => ?_
    obtain ⟨n, rfl⟩ := hx k hk
    obtain ⟨m, rfl⟩ := hy k hk
    have hg := two_zpow_pos (gridExp p k)
    have hnm : n - m ≠ 0 := by
      intro e
      apply h
      rw [← sub_mul, ← Int.cast_sub, e]; simp
    rw [← sub_mul, abs_mul, abs_of_pos hg, ← Int.cast_sub, ← Int.cast_abs]
    have : (1 : ℝ) ≤ ((|n - m| : ℤ) : ℝ) := by exact_mod_cast Int.one_le_abs hnm
    nlinarith

/-- A rounded difference of grid numbers, and its square, stay clear of underflow. -/
theorem _root_.Verif.Spec.OnGrid.diff (hp : 1 < p) (h : Rounds p emin rnd) {x y : ℝ} (hx : OnGrid p emin x) (hy : OnGrid p emin y) :
    Safe p emin (x - y) ∧ Safe p emin (rnd (x - y)) ∧ Safe p emin (rnd (x - y) * rnd (x - y)) ∧
    (∀ k, emin = some k → rnd (x - y) = 0 ∨ (2 : ℝ) ^ gridExp p k ≤ |rnd (x - y)|) := by
  have hs : Safe p emin (x - y) := by
    rcases hx.sub hy with h0 | h0
    · exact .inl h0
    · refine .inr fun k hk => le_trans ?_ (h0 k hk)
      exact zpow_le_zpow_right₀ (by norm_num) (le_max_left _ _)
  have hb : ∀ k, emin = some k → rnd (x - y) = 0 ∨ (2 : ℝ) ^ gridExp p k ≤ |rnd (x - y)| := by
    intro k hk
    rcases hx.sub hy with h0 | h0
    · left; rw [h0, h.zero]
    · right
      rw [h.abs]
      refine h.le_of (representable_two_pow hp ?_) (h0 k hk)
      intro k' hk'
      rw [hk, Option.some.injEq] at hk'
      have : k + p - 1 ≤ gridExp p k := le_max_left _ _
      omega
  refine ⟨hs, hs.round_safe hp h, ?_, hb⟩
  by_cases h0 : rnd (x - y) = 0
  · left; rw [h0, zero_mul]
  · refine .inr fun k hk => ?_
    have h1 := (hb k hk).resolve_left h0
    rw [abs_mul]
    have hg := two_zpow_pos (gridExp p k)
    have h2 : (2 : ℝ) ^ gridExp p k * 2 ^ gridExp p k ≤ |rnd (x - y)| * |rnd (x - y)| :=
      mul_le_mul h1 h1 hg.le (abs_nonneg _)
    refine le_trans ?_ h2
    rw [← zpow_add₀ (by norm_num)]
    apply zpow_le_zpow_right₀ (by norm_num)
    have : (k + p) / 2 ≤ gridExp p k := le_max_right _ _
    omega
end

section
variable {F : FloatFormat} {D : Nat}

/-- The points `nearest` can be trusted with. -/
def GridPoint (v : Vec (Fl F) D) : Prop := ∀ i, OnGrid F.prec F.emin (v i).1

/-- The accumulator of `KdTree::distance` after the first `n` coordinates. -/
noncomputable def kdAcc (a b : Vec (Fl F) D) (n : Nat) (hn : n ≤ D) : Fl F :=
  Fin.foldl n (fun sum i => sum + (a (i.castLE hn) - b (i.castLE hn)) * (a (i.castLE hn) - b (i.castLE hn))) 0

theorem kdAcc_succ (a b : Vec (Fl F) D) (n : Nat) (hn : n + 1 ≤ D) :
    kdAcc a b (n + 1) hn = kdAcc a b n (by omega) + (a ⟨n, hn⟩ - b ⟨n, hn⟩) * (a ⟨n, hn⟩ - b ⟨n, hn⟩) := by
  unfold kdAcc
  rw [Fin.foldl_succ_last]
  rfl

theorem kdDistance_acc (a b : Vec (Fl F) D) : kdDistance a b = HasSqrt.sqrt (kdAcc a b D le_rfl) := rfl

theorem kdAcc_nonneg (a b : Vec (Fl F) D) (n : Nat) (hn : n ≤ D) : 0 ≤ (kdAcc a b n hn).1 := by
  induction n with
  | zero => exact le_refl _
  | succ n ih =>
    rw [kdAcc_succ, Fl.val_add, Fl.val_mul]
    exact F.rounds.nonneg (add_nonneg (ih (by omega)) (F.rounds.nonneg (mul_self_nonneg _)))

theorem term_le_kdAcc (a b : Vec (Fl F) D) (n : Nat) (hn : n ≤ D) (i : Nat) (hi : i < n) :
    ((a ⟨i, by omega⟩ - b ⟨i, by omega⟩) * (a ⟨i, by omega⟩ - b ⟨i, by omega⟩) : Fl F).1 ≤ (kdAcc a b n hn).1 := by
  induction n with
  | zero => omega
  | succ n ih =>
    rw [kdAcc_succ, Fl.val_add]
    rcases Nat.lt_succ_iff_lt_or_eq.1 hi with h | rfl
    · refine (ih (by omega) h).trans (F.rounds.le_of (kdAcc a b n (by omega)).2 ?_)
      have : 0 ≤ ((a ⟨n, hn⟩ - b ⟨n, hn⟩) * (a ⟨n, hn⟩ - b ⟨n, hn⟩) : Fl F).1 := F.rounds.nonneg (mul_self_nonneg _)
      linarith
    · refine F.rounds.le_of (Subtype.property _) ?_
      have := kdAcc_nonneg a b i (by omega)
      linarith

/-- The computed distance is at least every computed coordinate difference. -/
theorem abs_diff_le_kdDistance {a b : Vec (Fl F) D} (ha : GridPoint a) (hb : GridPoint b) (i : Fin D) :
    |(a i - b i).1| ≤ (kdDistance a b).1 := by
  obtain ⟨_, h2, h3, _⟩ := (ha i).diff F.one_lt_prec F.rounds (hb i)
  have hsq : |(a i - b i).1| ≤ F.rnd (Real.sqrt (F.rnd (|(a i - b i).1| * |(a i - b i).1|))) := by
    refine F.rounds.sqrt_sq F.one_lt_prec ?_ (abs_nonneg _) ?_ ?_
    · rcases abs_choice (a i - b i).1 with h | h <;> rw [h]
      · exact (a i - b i).2
      · exact (a i - b i).2.neg
    · rcases abs_choice (a i - b i).1 with h | h <;> rw [h]
      · exact h2
      · exact h2.neg
    · rw [abs_mul_abs_self]; exact h3
  refine hsq.trans ?_
  rw [kdDistance_acc, Fl.val_sqrt]
  apply F.rounds.mono
  apply Real.sqrt_le_sqrt
  rw [abs_mul_abs_self]
  exact term_le_kdAcc a b D le_rfl i.1 i.2

theorem kdDistance_comm_fl (a b : Vec (Fl F) D) : kdDistance a b = kdDistance b a := by
  unfold kdDistance
  congr 2
  funext s i
  congr 1
  apply Fl.ext
  rw [Fl.val_mul, Fl.val_mul, Fl.val_sub, Fl.val_sub, show (b i).1 - (a i).1 = -((a i).1 - (b i).1) by ring, F.rounds.odd]
  congr 1; ring

theorem kdDistance_self_fl (a : Vec (Fl F) D) : kdDistance a a = 0 := by
  have h : ∀ n (hn : n ≤ D), kdAcc a a n hn = 0 := by
    intro n hn
    induction n with
    | zero => rfl
    | succ n ih =>
      rw [kdAcc_succ, ih (by omega)]
      apply Fl.ext
      simp [F.rounds.zero]
  rw [kdDistance_acc, h]
  apply Fl.ext
  simp [F.rounds.zero]

/-- A rounded number is zero only if the number is (without underflow). -/
theorem rnd_eq_zero {x : ℝ} (hs : Safe F.prec F.emin x) (h : F.rnd x = 0) : x = 0 := by
  have := F.rounds.error F.one_lt_prec hs
  rw [h, zero_sub, abs_neg] at this
  have h1 : (2 : ℝ)⁻¹ ^ F.prec ≤ 2⁻¹ := by
    have := F.one_lt_prec
    calc (2 : ℝ)⁻¹ ^ F.prec ≤ (2 : ℝ)⁻¹ ^ 1 := pow_le_pow_of_le_one (by norm_num) (by norm_num) (by omega)
      _ = _ := by norm_num
  have h2 := abs_nonneg x
  have : |x| = 0 := by nlinarith
  exact abs_eq_zero.1 this

/-- `nearest` is sound in floating point arithmetic, for points that stay clear of underflow. -/
noncomputable instance nearestSound_fl (F : FloatFormat) (D : Nat) : NearestSound (Fl F) D where
  dom := GridPoint
  left q p r a hq hp hr h1 h2 := by
    rw [not_lt, Fl.le_iff, Fl.val_stdAbs]
    refine le_trans ?_ (abs_diff_le_kdDistance hr hq a)
    rw [Fl.lt_iff, not_lt] at h2
    rw [Fl.lt_iff, Fl.val_sub, Fl.val_zero] at h1
    have hqp : (q a).1 < (p a).1 := by
      by_contra hc
      have := F.rounds.nonneg (show 0 ≤ (q a).1 - (p a).1 by linarith)
      linarith
    rw [Fl.val_sub, Fl.val_sub, F.rounds.abs, F.rounds.abs]
    apply F.rounds.mono
    rw [abs_of_neg (by linarith), abs_of_nonneg (by linarith)]
    linarith
  right q p r a hq hp hr h1 h2 := by
    rw [not_lt, Fl.le_iff, Fl.val_stdAbs]
    refine le_trans ?_ (abs_diff_le_kdDistance hr hq a)
    rw [Fl.lt_iff] at h2
    rw [Fl.lt_iff, Fl.val_sub, Fl.val_zero, not_lt] at h1
    rw [Fl.val_sub, Fl.val_sub, F.rounds.abs, F.rounds.abs]
    have hpq : (p a).1 ≤ (q a).1 := by
      have hs := ((hq a).diff F.one_lt_prec F.rounds (hp a)).1
      by_contra hc
      have h3 : F.rnd ((q a).1 - (p a).1) ≤ 0 := by
        have := F.rounds.mono (show (q a).1 - (p a).1 ≤ 0 by linarith)
        rwa [F.rounds.zero] at this
      have := rnd_eq_zero hs (le_antisymm h3 h1)
      linarith
    apply F.rounds.mono
    rw [abs_of_nonneg (by linarith), abs_of_neg (by linarith)]
    linarith
  comm a b _ _ := kdDistance_comm_fl a b
  sep p q hp hq h := by
    rw [kdDistance_self_fl] at h
    funext i
    have h1 := (abs_diff_le_kdDistance hp hq i).trans ((Fl.le_iff _ _).1 h)
    have h2 : (p i - q i).1 = 0 := abs_eq_zero.1 (le_antisymm h1 (abs_nonneg _))
    have := rnd_eq_zero ((hp i).diff F.one_lt_prec F.rounds (hq i)).1 h2
    exact Fl.ext (by linarith)

/-! ### Querying stored points -/

theorem _root_.Verif.FloatFormat.emin_le (F : FloatFormat) (k : ℤ) (hk : F.emin = some k) : k ≤ 0 := by
  obtain ⟨m, e, hm, he, h1⟩ := F.one_mem
  have hke := he k hk
  by_contra hc
  have : (1 : ℤ) ≤ e := by omega
  obtain ⟨d, hd⟩ := Int.eq_ofNat_of_zero_le (show 0 ≤ e - 1 by omega)
  rw [show e = (d + 1 : ℕ) by push_cast; omega, zpow_natCast] at h1
  have h2 : (1 : ℤ) = m * 2 ^ (d + 1) := by exact_mod_cast h1
  have : (2 : ℤ) ∣ 1 := by rw [h2]; exact Dvd.intro_left (m * 2 ^ d) (by ring)
  omega

theorem rnd_pos {x : ℝ} (h0 : 0 < x) (h : ∀ k, F.emin = some k → (2 : ℝ) ^ k ≤ x) : 0 < F.rnd x := by
  cases he : F.emin with
  | none =>
    refine lt_of_le_of_ne (F.rounds.nonneg h0.le) fun e => h0.ne' ?_
    exact rnd_eq_zero (by rw [he]; exact safe_none x) e.symm
  | some k =>
    refine lt_of_lt_of_le (two_zpow_pos k) (F.rounds.le_of ?_ (h k he))
    apply representable_two_pow F.one_lt_prec
    intro k' hk'
    rw [he, Option.some.injEq] at hk'
    omega

/-- Different numbers differ by the smallest positive number at least. -/
theorem gap_le {a b : Fl F} (h : a.1 < b.1) (k : ℤ) (hk : F.emin = some k) : (2 : ℝ) ^ k ≤ b.1 - a.1 := by
  have hmul : ∀ x : Fl F, ∃ n : ℤ, x.1 = n * 2 ^ k := by
    rintro ⟨x, m, e, _, he, rfl⟩
    obtain ⟨d, hd⟩ := Int.eq_ofNat_of_zero_le (show 0 ≤ e - k by have := he k hk; omega)
    refine ⟨m * 2 ^ d, ?_⟩
    show (m : ℝ) * 2 ^ e = _
    rw [show e = d + k by omega, zpow_add₀ (by norm_num), zpow_natCast]
    push_cast; ring
  obtain ⟨m, hm⟩ := hmul a
  obtain ⟨n, hn⟩ := hmul b
  have hp := two_zpow_pos k
  rw [hm, hn] at h ⊢
  have h1 : m < n := by exact_mod_cast lt_of_mul_lt_mul_right h hp.le
  have h2 : (1 : ℝ) ≤ n - m := by exact_mod_cast (show (1 : ℤ) ≤ n - m by omega)
  nlinarith

theorem sub_lt_zero_fl (a b : Fl F) : a - b < 0 ↔ a < b := by
  rw [Fl.lt_iff, Fl.lt_iff, Fl.val_sub, Fl.val_zero]
  constructor
  · intro h
    by_contra hc
    have := F.rounds.nonneg (show 0 ≤ a.1 - b.1 by linarith)
    linarith
  · intro h
    have := rnd_pos (F := F) (sub_pos.2 h) fun k hk => gap_le h k hk
    rw [show a.1 - b.1 = -(b.1 - a.1) by ring, F.rounds.odd]
    linarith

/-- What finding stored points needs holds without restriction. -/
instance storedSound_fl (F : FloatFormat) (D : Nat) : StoredSound (Fl F) D where
  side := sub_lt_zero_fl
  comm := kdDistance_comm_fl
  self_le p q := by
    rw [kdDistance_self_fl, Fl.le_iff]
    exact F.rounds.nonneg (Real.sqrt_nonneg _)

theorem kdDistance_pos {u v : Vec (Fl F) D} {i : Fin D} (h : Resolved F.emin (u i).1 (v i).1) : 0 < (kdDistance u v).1 := by
  have hsq : 0 < (kdAcc u v D le_rfl).1 := by
    refine lt_of_lt_of_le ?_ (term_le_kdAcc u v D le_rfl i.1 i.2)
    rw [Fl.val_mul, ← abs_mul_abs_self, Fl.val_sub, F.rounds.abs]
    have h0 : 0 < |(u i).1 - (v i).1| := abs_pos.2 (sub_ne_zero.2 h.1)
    have h1 : 0 < F.rnd |(u i).1 - (v i).1| := by
      apply rnd_pos h0
      intro k hk
      refine le_trans (zpow_le_zpow_right₀ (by norm_num) ?_) (h.2 k hk)
      have := F.emin_le k hk
      omega
    apply rnd_pos (mul_pos h1 h1)
    intro k hk
    have hk0 := F.emin_le k hk
    have h2 : (2 : ℝ) ^ ((k + 1) / 2) ≤ F.rnd |(u i).1 - (v i).1| := by
      refine F.rounds.le_of (representable_two_pow F.one_lt_prec ?_) (h.2 k hk)
      intro k' hk'
      rw [hk, Option.some.injEq] at hk'
      omega
    refine le_trans ?_ (mul_le_mul h2 h2 (two_zpow_pos _).le h1.le)
    rw [← zpow_add₀ (by norm_num)]
    apply zpow_le_zpow_right₀ (by norm_num)
    omega
  rw [kdDistance_acc, Fl.val_sqrt]
  rcases le_total (kdAcc u v D le_rfl).1 1 with h1 | h1
  · refine hsq.trans_le (F.rounds.le_of (Subtype.property _) ?_)
    apply Real.le_sqrt_of_sq_le
    nlinarith
  · refine one_pos.trans_le (F.rounds.le_of F.one_mem ?_)
    exact Real.one_le_sqrt.2 h1

/-- Different integers are resolved. -/
theorem resolved_int (F : FloatFormat) {m n : ℤ} (h : m ≠ n) : Resolved F.emin (m : ℝ) n := by
  refine ⟨by exact_mod_cast h, fun k hk => ?_⟩
  have h1 : (1 : ℝ) ≤ |(m : ℝ) - n| := by exact_mod_cast Int.one_le_abs (sub_ne_zero.2 h)
  refine le_trans ?_ h1
  apply zpow_le_one_of_nonpos₀ (by norm_num)
  have := F.emin_le k hk
  omega

/-- Points that are equal or resolved in some coordinate are told apart by the computed distance. -/
theorem apart_fl {ps : List (Vec (Fl F) D)} (h : ∀ u ∈ ps, ∀ v ∈ ps, u ≠ v → ∃ i, Resolved F.emin (u i).1 (v i).1) : Apart ps := by
  intro u hu v hv hd
  by_contra hne
  obtain ⟨i, hi⟩ := h u hu v hv hne
  rw [kdDistance_self_fl, Fl.le_iff, Fl.val_zero] at hd
  exact absurd (kdDistance_pos hi) (not_lt.2 hd)

/-! ### Error of the computed distance -/

theorem unit_lt_one (F : FloatFormat) : 0 < (2 : ℝ)⁻¹ ^ F.prec ∧ (2 : ℝ)⁻¹ ^ F.prec < 1 :=
  ⟨by positivity, pow_lt_one₀ (by norm_num) (by norm_num) (by have := F.one_lt_prec; omega)⟩

theorem sq_term_bounds {a b : Vec (Fl F) D} (ha : GridPoint a) (hb : GridPoint b) (i : Fin D) :
    (1 - (2 : ℝ)⁻¹ ^ F.prec) ^ 3 * ((a i).1 - (b i).1) ^ 2 ≤ ((a i - b i) * (a i - b i)).1 ∧
    ((a i - b i) * (a i - b i)).1 ≤ (1 + (2 : ℝ)⁻¹ ^ F.prec) ^ 3 * ((a i).1 - (b i).1) ^ 2 ∧
    Safe F.prec F.emin ((a i - b i) * (a i - b i)).1 := by
  obtain ⟨h1, _, h3, _⟩ := (ha i).diff F.one_lt_prec F.rounds (hb i)
  obtain ⟨hu0, hu1⟩ := unit_lt_one F
  set u := (2 : ℝ)⁻¹ ^ F.prec with hu
  set x := (a i).1 - (b i).1 with hx
  have he := F.rounds.error F.one_lt_prec h1
  rw [← hu] at he
  have hlo : (1 - u) * |x| ≤ |F.rnd x| := by
    have := abs_sub_abs_le_abs_sub x (F.rnd x)
    rw [abs_sub_comm x (F.rnd x)] at this
    linarith
  have hhi : |F.rnd x| ≤ (1 + u) * |x| := by
    have := abs_sub_abs_le_abs_sub (F.rnd x) x
    linarith
  have hb := F.rounds.bounds F.one_lt_prec h3 (mul_self_nonneg _)
  rw [Fl.val_mul, Fl.val_sub, ← hx]
  have hsq : F.rnd x * F.rnd x = |F.rnd x| * |F.rnd x| := (abs_mul_abs_self _).symm
  have hxx : x ^ 2 = |x| * |x| := by rw [abs_mul_abs_self]; ring
  have hx0 := abs_nonneg x
  have hr0 := abs_nonneg (F.rnd x)
  refine ⟨le_trans ?_ hb.1, le_trans hb.2 ?_, h3.round_safe F.one_lt_prec F.rounds⟩
  · rw [hsq, hxx]
    have : ((1 - u) * |x|) * ((1 - u) * |x|) ≤ |F.rnd x| * |F.rnd x| :=
      mul_le_mul hlo hlo (mul_nonneg (by linarith) hx0) hr0
    calc (1 - u) ^ 3 * (|x| * |x|) = (1 - u) * (((1 - u) * |x|) * ((1 - u) * |x|)) := by ring
      _ ≤ _ := mul_le_mul_of_nonneg_left this (by linarith)
  · rw [hsq, hxx]
    have : |F.rnd x| * |F.rnd x| ≤ ((1 + u) * |x|) * ((1 + u) * |x|) :=
      mul_le_mul hhi hhi hr0 (mul_nonneg (by linarith) hx0)
    calc (1 + u) * (|F.rnd x| * |F.rnd x|) ≤ (1 + u) * (((1 + u) * |x|) * ((1 + u) * |x|)) :=
          mul_le_mul_of_nonneg_left this (by linarith)
      _ = _ := by ring

theorem kdAcc_bounds {a b : Vec (Fl F) D} (ha : GridPoint a) (hb : GridPoint b) (n : Nat) (hn : n ≤ D) :
    (1 - (2 : ℝ)⁻¹ ^ F.prec) ^ (n + 3) * ∑ i : Fin n, ((a (i.castLE hn)).1 - (b (i.castLE hn)).1) ^ 2 ≤ (kdAcc a b n hn).1 ∧
    (kdAcc a b n hn).1 ≤ (1 + (2 : ℝ)⁻¹ ^ F.prec) ^ (n + 3) * ∑ i : Fin n, ((a (i.castLE hn)).1 - (b (i.castLE hn)).1) ^ 2 ∧
    Safe F.prec F.emin (kdAcc a b n hn).1 := by
  obtain ⟨hu0, hu1⟩ := unit_lt_one F
  induction n with
  | zero => exact ⟨by simp [kdAcc], by simp [kdAcc], .inl rfl⟩
  | succ n ih =>
    obtain ⟨i1, i2, i3⟩ := ih (by omega)
    obtain ⟨t1, t2, t3⟩ := sq_term_bounds ha hb ⟨n, hn⟩
    rw [kdAcc_succ, Fl.val_add, Fin.sum_univ_castSucc]
    have n1 := kdAcc_nonneg a b n (by omega)
    have n2 : 0 ≤ ((a ⟨n, hn⟩ - b ⟨n, hn⟩) * (a ⟨n, hn⟩ - b ⟨n, hn⟩) : Fl F).1 := F.rounds.nonneg (mul_self_nonneg _)
    have hs := i3.add t3 n1 n2
    have hb := F.rounds.bounds F.one_lt_prec hs (add_nonneg n1 n2)
    refine ⟨le_trans ?_ hb.1, le_trans hb.2 ?_, hs.round_safe F.one_lt_prec F.rounds⟩
    all_goals
      set u := (2 : ℝ)⁻¹ ^ F.prec with hu
      simp only [show ∀ i : Fin n, Fin.castLE hn i.castSucc = i.castLE (by omega) from fun _ => rfl,
        show Fin.castLE hn (Fin.last n) = ⟨n, hn⟩ from rfl]
      have hd := sq_nonneg ((a ⟨n, hn⟩).1 - (b ⟨n, hn⟩).1)
    · have hpow : (1 - u) ^ (n + 3) ≤ (1 - u) ^ 3 := pow_le_pow_of_le_one (by linarith) (by linarith) (by omega)
      have := mul_le_mul_of_nonneg_right hpow hd
      calc _ = (1 - u) * ((1 - u) ^ (n + 3) * ∑ i : Fin n, ((a (i.castLE (by omega))).1 - (b (i.castLE (by omega))).1) ^ 2
            + (1 - u) ^ (n + 3) * ((a ⟨n, hn⟩).1 - (b ⟨n, hn⟩).1) ^ 2) := by ring
        _ ≤ _ := mul_le_mul_of_nonneg_left (by linarith) (by linarith)
    · have hpow : (1 + u) ^ 3 ≤ (1 + u) ^ (n + 3) := pow_le_pow_right₀ (by linarith) (by omega)
      have := mul_le_mul_of_nonneg_right hpow hd
      calc _ ≤ (1 + u) * ((1 + u) ^ (n + 3) * ∑ i : Fin n, ((a (i.castLE (by omega))).1 - (b (i.castLE (by omega))).1) ^ 2
            + (1 + u) ^ (n + 3) * ((a ⟨n, hn⟩).1 - (b ⟨n, hn⟩).1) ^ 2) := mul_le_mul_of_nonneg_left (by linarith) (by linarith)
        _ = _ := by ring

/-- The computed distance against the distance. -/
theorem kdDistance_bounds {a b : Vec (Fl F) D} (ha : GridPoint a) (hb : GridPoint b) :
    (1 - (2 : ℝ)⁻¹ ^ F.prec) ^ (D + 5) * Spec.dist (Fl.toReal a) (Fl.toReal b) ^ 2 ≤ (kdDistance a b).1 ^ 2 ∧
    (kdDistance a b).1 ^ 2 ≤ (1 + (2 : ℝ)⁻¹ ^ F.prec) ^ (D + 5) * Spec.dist (Fl.toReal a) (Fl.toReal b) ^ 2 := by
  obtain ⟨hu0, hu1⟩ := unit_lt_one F
  obtain ⟨h1, h2, _⟩ := kdAcc_bounds ha hb D le_rfl
  have hd : Spec.dist (Fl.toReal a) (Fl.toReal b) ^ 2 = ∑ i : Fin D, ((a i).1 - (b i).1) ^ 2 := by
    unfold Spec.dist
    rw [Real.sq_sqrt (Finset.sum_nonneg fun i _ => sq_nonneg _)]
    rfl
  simp only [Fin.castLE_rfl, id] at h1 h2
  have n0 := kdAcc_nonneg a b D le_rfl
  -- the root is clear of underflow
  have hsafe : Safe F.prec F.emin (Real.sqrt (kdAcc a b D le_rfl).1) := by
    by_cases hz : (kdAcc a b D le_rfl).1 = 0
    · left; rw [hz, Real.sqrt_zero]
    · refine .inr fun k hk => ?_
      -- some coordinate difference is not zero
      have : ∃ i : Fin D, (a i - b i).1 ≠ 0 := by
        by_contra hall
        push Not at hall
        apply hz
        have h0 : ∀ n (hn : n ≤ D), (kdAcc a b n hn).1 = 0 := by
          intro n hn
          induction n with
          | zero => rfl
          | succ n ih => rw [kdAcc_succ, Fl.val_add, Fl.val_mul, hall, ih (by omega)]; simp [F.rounds.zero]
        exact h0 D le_rfl
      obtain ⟨i, hi⟩ := this
      have hb4 := (((ha i).diff F.one_lt_prec F.rounds (hb i)).2.2.2 k hk).resolve_left hi
      have hg := two_zpow_pos (gridExp F.prec k)
      have hN : k + F.prec - 1 ≤ gridExp F.prec k := le_max_left _ _
      have hH : (k + F.prec) / 2 ≤ gridExp F.prec k := le_max_right _ _
      rw [abs_of_nonneg (Real.sqrt_nonneg _)]
      refine le_trans (zpow_le_zpow_right₀ (by norm_num) hN) ?_
      apply Real.le_sqrt_of_sq_le
      refine le_trans ?_ (term_le_kdAcc a b D le_rfl i.1 i.2)
      rw [Fl.val_mul]
      refine F.rounds.le_of ?_ ?_
      · rw [pow_two, ← zpow_add₀ (by norm_num)]
        apply representable_two_pow F.one_lt_prec
        intro k' hk'
        rw [hk, Option.some.injEq] at hk'
        have := F.one_lt_prec
        omega
      · rw [← abs_mul_abs_self, pow_two]
        exact mul_le_mul hb4 hb4 hg.le (abs_nonneg _)
  have hb := F.rounds.bounds F.one_lt_prec hsafe (Real.sqrt_nonneg _)
  have hs2 : Real.sqrt (kdAcc a b D le_rfl).1 ^ 2 = (kdAcc a b D le_rfl).1 := Real.sq_sqrt n0
  have hr := Real.sqrt_nonneg (kdAcc a b D le_rfl).1
  rw [kdDistance_acc, Fl.val_sqrt, hd]
  set u := (2 : ℝ)⁻¹ ^ F.prec with hu
  set s := Real.sqrt (kdAcc a b D le_rfl).1 with hs
  constructor
  · calc (1 - u) ^ (D + 5) * ∑ i : Fin D, ((a i).1 - (b i).1) ^ 2
        = (1 - u) ^ 2 * ((1 - u) ^ (D + 3) * ∑ i : Fin D, ((a i).1 - (b i).1) ^ 2) := by ring
      _ ≤ (1 - u) ^ 2 * s ^ 2 := by rw [hs2]; exact mul_le_mul_of_nonneg_left h1 (sq_nonneg _)
      _ = ((1 - u) * s) ^ 2 := by ring
      _ ≤ _ := pow_le_pow_left₀ (mul_nonneg (by linarith) hr) hb.1 2
  · calc F.rnd s ^ 2 ≤ ((1 + u) * s) ^ 2 := pow_le_pow_left₀ (F.rounds.nonneg hr) hb.2 2
      _ = (1 + u) ^ 2 * s ^ 2 := by ring
      _ ≤ (1 + u) ^ 2 * ((1 + u) ^ (D + 3) * ∑ i : Fin D, ((a i).1 - (b i).1) ^ 2) := by
        rw [hs2]; exact mul_le_mul_of_nonneg_left h2 (sq_nonneg _)
      _ = _ := by ring
end
end Verif
