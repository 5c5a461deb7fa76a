import Verif.Model.Ieee
import Verif.Model.Linal
import Verif.Proofs.FloatKdTree

set_option linter.unusedSectionVars false

/-
Values of IEEE arithmetic that stand for numbers of the arithmetic without largest exponent, and how long they do.
-/
namespace Verif
open Spec
namespace Ieee
variable {F : IeeeFormat}

/-- `a` is finite, it stands for the number `x` (either zero stands for zero), and its size is at most `2 ^ k`. -/
structure Near (k : ℕ) (a : Ieee F) (x : Fl F.toFloatFormat) : Prop where
  val : a.val? = some x.1
  le : |x.1| ≤ 2 ^ k

theorem pow_mem (F : FloatFormat) (k : ℕ) : Representable F.prec F.emin ((2 : ℝ) ^ k) := by
  have := representable_two_pow (emin := F.emin) F.one_lt_prec (e := k) (fun j hj => by have := F.emin_le j hj; omega)
  simpa using this

theorem rnd_le_pow {F : FloatFormat} {r : ℝ} {k : ℕ} (h : |r| ≤ 2 ^ k) : |F.rnd r| ≤ 2 ^ k := by
  rw [F.rounds.abs]; exact F.rounds.of_le (pow_mem F k) h

theorem pow_lt_pow' {k m : ℕ} (h : k < m) : (2 : ℝ) ^ k < 2 ^ m := pow_lt_pow_right₀ (by norm_num) h

theorem ofReal_near {s : Bool} {r : ℝ} {k : ℕ} (h : |r| ≤ 2 ^ k) (hk : k < F.emax) : Near k (ofReal (F := F) s r) (Fl.round r) := by
  have h1 : |(Fl.round r : Fl F.toFloatFormat).1| ≤ 2 ^ k := rnd_le_pow h
  refine ⟨?_, h1⟩
  unfold ofReal
  simp only
  split_ifs with h0 hs h2
  · exact congrArg some h0.symm
  · exact congrArg some h0.symm
  · rfl
  · exact absurd (lt_of_le_of_lt h1 (pow_lt_pow' hk)) h2

theorem Near.mono {k m : ℕ} {a : Ieee F} {x : Fl F.toFloatFormat} (h : Near k a x) (hk : k ≤ m) : Near m a x :=
  ⟨h.val, h.le.trans (pow_le_pow_right₀ (by norm_num) hk)⟩

/-- A finite value is `-0.0` or a number. -/
theorem Near.cases {k : ℕ} {a : Ieee F} {x : Fl F.toFloatFormat} (h : Near k a x) :
    (a = negZero ∧ x = 0) ∨ ∃ hx, a = fin x hx := by
  have hv := h.val
  cases a with
  | nan => simp [val?] at hv
  | inf s => simp [val?] at hv
  | negZero => exact .inl ⟨rfl, Fl.ext (by simpa [val?] using hv.symm)⟩
  | fin y hy =>
    have : y = x := Fl.ext (by simpa [val?] using hv)
    subst this; exact .inr ⟨hy, rfl⟩

theorem near_zero : Near 0 (0 : Ieee F) 0 := ⟨rfl, by simp⟩
theorem near_one : Near 0 (1 : Ieee F) 1 := ⟨rfl, by show |(1 : ℝ)| ≤ _; simp⟩
theorem near_two : Near 1 (2 : Ieee F) 2 := ofReal_near (by norm_num) F.one_lt_emax
theorem near_fin {x : Fl F.toFloatFormat} {k : ℕ} (h : |x.1| ≤ 2 ^ k) (hk) : Near k (fin x hk : Ieee F) x := ⟨rfl, h⟩

theorem Near.neg {k : ℕ} {a : Ieee F} {x : Fl F.toFloatFormat} (h : Near k a x) : Near k (-a) (-x) := by
  refine ⟨?_, by show |-x.1| ≤ _; rw [abs_neg]; exact h.le⟩
  rcases h.cases with ⟨rfl, rfl⟩ | ⟨hx, rfl⟩
  · show some (0 : ℝ) = some (-(0 : ℝ)); simp
  · show (@ite (Ieee F) (x.1 = 0) _ _ _).val? = _
    split_ifs with h0
    · show some (0 : ℝ) = some (-x.1); simp [h0]
    · rfl

theorem add_def {a b : Ieee F} {u v : ℝ} (ha : a.val? = some u) (hb : b.val? = some v) :
    ∃ s, a + b = ofReal s (u + v) := by
  cases a <;> cases b <;> simp only [val?, Option.some.injEq, reduceCtorEq] at ha hb <;> subst ha hb <;> exact ⟨_, rfl⟩

theorem Near.add {k : ℕ} {a b : Ieee F} {x y : Fl F.toFloatFormat} (ha : Near k a x) (hb : Near k b y) (hk : k + 1 < F.emax) :
    Near (k + 1) (a + b) (x + y) := by
  obtain ⟨s, hs⟩ := add_def ha.val hb.val
  rw [hs]
  refine ofReal_near ?_ hk
  rw [pow_succ]; have := abs_add_le x.1 y.1; linarith [ha.le, hb.le]

theorem Near.sub {k : ℕ} {a b : Ieee F} {x y : Fl F.toFloatFormat} (ha : Near k a x) (hb : Near k b y) (hk : k + 1 < F.emax) :
    Near (k + 1) (a - b) (x - y) := by
  have := ha.add hb.neg hk
  have e : x - y = x + -y := Fl.ext (by show F.rnd (x.1 - y.1) = F.rnd (x.1 + -y.1); rw [sub_eq_add_neg])
  rw [e]; exact this

theorem mul_def {a b : Ieee F} {u v : ℝ} (ha : a.val? = some u) (hb : b.val? = some v) :
    ∃ s, a * b = ofReal s (u * v) := by
  cases a <;> cases b <;> simp only [val?, Option.some.injEq, reduceCtorEq] at ha hb <;> subst ha hb <;> exact ⟨_, rfl⟩

theorem Near.mul {i j : ℕ} {a b : Ieee F} {x y : Fl F.toFloatFormat} (ha : Near i a x) (hb : Near j b y) (hk : i + j < F.emax) :
    Near (i + j) (a * b) (x * y) := by
  obtain ⟨s, hs⟩ := mul_def ha.val hb.val
  rw [hs]
  refine ofReal_near ?_ hk
  rw [abs_mul, pow_add]; exact mul_le_mul ha.le hb.le (abs_nonneg _) (by positivity)

theorem div_def {a b : Ieee F} {u v : ℝ} (ha : a.val? = some u) (hb : b.val? = some v) (hv : v ≠ 0) :
    ∃ s, a / b = ofReal s (u / v) := by
  have hb0 : ¬ b.val? = some 0 := by rw [hb]; simpa using hv
  cases a <;> cases b <;> simp only [val?, Option.some.injEq, reduceCtorEq] at ha hb <;> subst ha hb
  · exact absurd rfl hv
  · exact ⟨_, if_neg hb0⟩
  · exact absurd rfl hv
  · exact ⟨_, if_neg hb0⟩

/-- The divisor has to be at least `2 ^ -j` in size. -/
theorem Near.div {i j m : ℕ} {a b : Ieee F} {x y : Fl F.toFloatFormat} (ha : Near i a x) (hb : Near m b y) (hy : 1 ≤ |y.1| * 2 ^ j)
    (hk : i + j < F.emax) : Near (i + j) (a / b) (x / y) := by
  have hy0 : y.1 ≠ 0 := by intro h; rw [h] at hy; norm_num at hy
  obtain ⟨s, hs⟩ := div_def ha.val hb.val hy0
  rw [hs]
  refine ofReal_near ?_ hk
  rw [abs_div, div_le_iff₀ (abs_pos.2 hy0), pow_add]
  have h2 : (0 : ℝ) < 2 ^ i := by positivity
  nlinarith [ha.le]

theorem Near.sqrt {k m : ℕ} {a : Ieee F} {x : Fl F.toFloatFormat} (h : Near k a x) (h0 : 0 ≤ x.1) (hm : k ≤ 2 * m) (hk : m < F.emax) :
    Near m (HasSqrt.sqrt a) (HasSqrt.sqrt x) := by
  have h1 : |Real.sqrt x.1| ≤ 2 ^ m := by
    rw [abs_of_nonneg (Real.sqrt_nonneg _)]
    refine Real.sqrt_le_iff.2 ⟨by positivity, ?_⟩
    rw [← pow_mul, mul_comm]
    exact (le_abs_self _).trans (h.le.trans (pow_le_pow_right₀ (by norm_num) hm))
  rcases h.cases with ⟨rfl, rfl⟩ | ⟨hx, rfl⟩
  · refine ⟨?_, ?_⟩
    · show some (0 : ℝ) = some (F.rnd (Real.sqrt 0)); rw [Real.sqrt_zero, F.rounds.zero]
    · show |F.rnd (Real.sqrt 0)| ≤ _; rw [Real.sqrt_zero, F.rounds.zero, abs_zero]; positivity
  · show Near m (@ite (Ieee F) (x.1 < 0) _ _ _) _
    rw [if_neg (not_lt.2 h0)]
    exact ofReal_near h1 hk

/-- Comparing finite values is comparing numbers. -/
theorem Near.lt_iff {i j : ℕ} {a b : Ieee F} {x y : Fl F.toFloatFormat} (ha : Near i a x) (hb : Near j b y) : a < b ↔ x < y := by
  rcases ha.cases with ⟨rfl, rfl⟩ | ⟨hx, rfl⟩ <;> rcases hb.cases with ⟨rfl, rfl⟩ | ⟨hy, rfl⟩ <;> exact Iff.rfl

theorem Near.beq_iff {i j : ℕ} {a b : Ieee F} {x y : Fl F.toFloatFormat} (ha : Near i a x) (hb : Near j b y) : a == b ↔ x = y := by
  have : (a == b) = true ↔ a.val? = b.val? := by
    rcases ha.cases with ⟨rfl, rfl⟩ | ⟨hx, rfl⟩ <;> rcases hb.cases with ⟨rfl, rfl⟩ | ⟨hy, rfl⟩ <;> exact ⟨@of_decide_eq_true _ (Classical.propDecidable _), @decide_eq_true _ (Classical.propDecidable _)⟩
  rw [this, ha.val, hb.val, Option.some.injEq]
  exact ⟨fun h => Fl.ext h, fun h => congrArg _ h⟩

theorem Near.stdAbs {k : ℕ} {a : Ieee F} {x : Fl F.toFloatFormat} (h : Near k a x) : Near k (stdAbs a) (stdAbs x) := by
  unfold Verif.stdAbs
  have := h.lt_iff near_zero
  by_cases hx : x < 0
  · rw [if_pos hx, if_pos (this.2 hx)]; exact h.neg
  · rw [if_neg hx, if_neg (fun hc => hx (this.1 hc))]; exact h

theorem Near.stdMin {k : ℕ} {a b : Ieee F} {x y : Fl F.toFloatFormat} (ha : Near k a x) (hb : Near k b y) :
    Near k (stdMin a b) (stdMin x y) := by
  unfold Verif.stdMin
  have := hb.lt_iff ha
  by_cases hx : y < x
  · rw [if_pos hx, if_pos (this.2 hx)]; exact hb
  · rw [if_neg hx, if_neg (fun hc => hx (this.1 hc))]; exact ha

theorem Near.stdMax {k : ℕ} {a b : Ieee F} {x y : Fl F.toFloatFormat} (ha : Near k a x) (hb : Near k b y) :
    Near k (stdMax a b) (stdMax x y) := by
  unfold Verif.stdMax
  have := ha.lt_iff hb
  by_cases hx : x < y
  · rw [if_pos hx, if_pos (this.2 hx)]; exact hb
  · rw [if_neg hx, if_neg (fun hc => hx (this.1 hc))]; exact ha

/-! ### Vectors -/

/-- The same for all coordinates. -/
def NearVec {D : Nat} (k : ℕ) (a : Vec (Ieee F) D) (x : Vec (Fl F.toFloatFormat) D) : Prop := ∀ i, Near k (a i) (x i)

variable {D : Nat}
theorem NearVec.mono {k m : ℕ} {a : Vec (Ieee F) D} {x : Vec (Fl F.toFloatFormat) D} (h : NearVec k a x) (hk : k ≤ m) : NearVec m a x :=
  fun i => (h i).mono hk

theorem NearVec.beq_iff {i j : ℕ} {a b : Vec (Ieee F) D} {x y : Vec (Fl F.toFloatFormat) D} (ha : NearVec i a x) (hb : NearVec j b y) :
    a == b ↔ x = y := by
  have : (a == b) = true ↔ ∀ l, (a l == b l) = true := ⟨@of_decide_eq_true _ (Classical.propDecidable _), @decide_eq_true _ (Classical.propDecidable _)⟩
  rw [this, funext_iff]
  exact forall_congr' fun l => (ha l).beq_iff (hb l)

theorem NearVec.vadd {k : ℕ} {a b : Vec (Ieee F) D} {x y : Vec (Fl F.toFloatFormat) D} (ha : NearVec k a x) (hb : NearVec k b y)
    (hk : k + 1 < F.emax) : NearVec (k + 1) (vadd a b) (vadd x y) := fun i => (ha i).add (hb i) hk

theorem NearVec.vsub {k : ℕ} {a b : Vec (Ieee F) D} {x y : Vec (Fl F.toFloatFormat) D} (ha : NearVec k a x) (hb : NearVec k b y)
    (hk : k + 1 < F.emax) : NearVec (k + 1) (vsub a b) (vsub x y) := fun i => (ha i).sub (hb i) hk

theorem NearVec.vscale {i j : ℕ} {a : Vec (Ieee F) D} {x : Vec (Fl F.toFloatFormat) D} {s : Ieee F} {t : Fl F.toFloatFormat}
    (ha : NearVec i a x) (hs : Near j s t) (hk : i + j < F.emax) : NearVec (i + j) (vscale a s) (vscale x t) :=
  fun l => (ha l).mul hs hk

/-- Sums of products, accumulated from the left. -/
theorem near_foldl {k : ℕ} (f : Fin D → Ieee F) (g : Fin D → Fl F.toFloatFormat) (h : ∀ i, Near k (f i) (g i)) (hk : k + D < F.emax) :
    Near (k + D) (Fin.foldl D (fun s i => s + f i) 0) (Fin.foldl D (fun s i => s + g i) 0) := by
  induction D with
  | zero => simpa using (near_zero (F := F)).mono (Nat.zero_le _)
  | succ n ih =>
    rw [Fin.foldl_succ_last, Fin.foldl_succ_last]
    have := ih (fun i => f i.castSucc) (fun i => g i.castSucc) (fun i => h _) (by omega)
    exact this.add ((h (Fin.last n)).mono (by omega)) (by omega)

theorem NearVec.dot {i j : ℕ} {a b : Vec (Ieee F) D} {x y : Vec (Fl F.toFloatFormat) D} (ha : NearVec i a x) (hb : NearVec j b y)
    (hk : i + j + D < F.emax) : Near (i + j + D) (dot a b) (dot x y) :=
  near_foldl _ _ (fun l => (ha l).mul (hb l) (by omega)) hk

end Ieee
end Verif
