import Verif.Proofs.FloatKdTree

set_option linter.unusedSectionVars false

/-
C90, C91: the k-d tree in floating point arithmetic.
-/
namespace Verif
open Spec KdNode

section
variable {F : FloatFormat} {D : Nat} {P : Type} {w : Nat} [NeZero D] [BEq (Vec (Fl F) D)] [LawfulBEq (Vec (Fl F) D)]

/-- **C90** In every binary floating point format and with every rounding to nearest: after any history of insertions of
points whose coordinates are clear of underflow (`OnGrid`; no restriction if the exponent is unbounded), `nearest`
returns an inserted point with the payload of its first insertion, and up to the factor
`((1 + u) / (1 - u)) ^ (D + 5)`, `u = 2 ^ -prec`, no inserted point has a smaller squared distance. -/
theorem C90_nearest (h : List (Vec (Fl F) D × P)) (q : Vec (Fl F) D)
    (hh : ∀ e ∈ h, ∀ i, OnGrid F.prec F.emin (e.1 i).1) (hq : ∀ i, OnGrid F.prec F.emin (q i).1) :
    (h = [] → (KdTree.build w h).nearest q = .error .exception) ∧
    (h ≠ [] → ∃ e ∈ Spec.firstEntries h, (KdTree.build w h).nearest q = .ok e ∧
      ∀ e' ∈ h, (1 - (2 : ℝ)⁻¹ ^ F.prec) ^ (D + 5) * Spec.dist (Fl.toReal e.1) (Fl.toReal q) ^ 2
        ≤ (1 + (2 : ℝ)⁻¹ ^ F.prec) ^ (D + 5) * Spec.dist (Fl.toReal e'.1) (Fl.toReal q) ^ 2) := by
  have hp := (KdTree.build_refines (w := w) h).2.1
  have hr : (KdTree.build w h).Reachable := KdTree.build_reachable h hh
  have hc := KdTree.nearest_least (KdTree.build w h) hr q hq
  constructor
  · intro h0; apply hc.1; subst h0; rfl
  · intro h0
    have hne : entries (KdTree.build w h).root ≠ [] := by
      obtain ⟨e, he⟩ := List.exists_mem_of_ne_nil h h0
      obtain ⟨e', he', _⟩ := (Spec.mem_firstEntries_key h e.1).2 ⟨e, he, by simp⟩
      intro hn
      rw [hn] at hp
      rw [hp.nil_eq.symm] at he'
      simp at he'
    obtain ⟨e, he, h1, h2⟩ := hc.2 hne
    refine ⟨e, hp.mem_iff.1 he, h1, fun e' he' => ?_⟩
    obtain ⟨e'', he'', heq⟩ := (Spec.mem_firstEntries_key h e'.1).2 ⟨e', he', by simp⟩
    rw [← eq_of_beq heq]
    have h3 := h2 e'' (hp.mem_iff.2 he'')
    have g1 : GridPoint e.1 := hr.entries_dom e he
    have g2 : GridPoint e''.1 := hr.entries_dom e'' (hp.mem_iff.2 he'')
    have n1 : 0 ≤ (kdDistance e.1 q).1 := F.rounds.nonneg (Real.sqrt_nonneg _)
    exact (kdDistance_bounds g1 hq).1.trans ((pow_le_pow_left₀ n1 h3 2).trans (kdDistance_bounds g2 hq).2)

/-- **C91** A stored point is found exactly, with its payload: rounding cannot make `nearest` return a neighbour instead.
Different points are assumed to differ in some coordinate by `2^-537` at least (`double`) or `2^-74` (`float`), there is no other
restriction on coordinates.  Missing: points so close that the squares of all differences underflow, see
`C91_counterexample`. -/
theorem C91_nearest_of_stored_partial (h : List (Vec (Fl F) D × P))
    (hh : ∀ a ∈ h, ∀ b ∈ h, a.1 ≠ b.1 → ∃ i, Resolved F.emin (a.1 i).1 (b.1 i).1)
    (e : Vec (Fl F) D × P) (he : e ∈ Spec.firstEntries h) : (KdTree.build w h).nearest e.1 = .ok e := by
  have hp := (KdTree.build_refines (w := w) h).2.1
  refine KdTree.nearest_of_stored (KdTree.build w h) (KdTree.build_refines (w := w) h).1 ?_ e (hp.mem_iff.2 he)
  apply apart_fl
  have hmem : ∀ v ∈ (entries (KdTree.build w h).root).map Prod.fst, ∃ a ∈ h, a.1 = v := by
    intro v hv
    obtain ⟨a, ha, rfl⟩ := List.mem_map.1 hv
    obtain ⟨a', ha', e'⟩ := (Spec.mem_firstEntries_key h a.1).1 ⟨a, hp.mem_iff.1 ha, by simp⟩
    exact ⟨a', ha', eq_of_beq e'⟩
  intro u hu v hv hne
  obtain ⟨a, ha, rfl⟩ := hmem u hu
  obtain ⟨b, hb, rfl⟩ := hmem v hv
  exact hh a ha b hb hne
end

/-- The square of the smallest number rounds to zero. -/
theorem tiny_sq (F : FloatFormat) (k : ℤ) (hk : F.emin = some k) (hk1 : k < -1) : F.rnd ((2 : ℝ) ^ k * 2 ^ k) = 0 := by
  have hpos := two_zpow_pos k
  have hn := F.rounds.nearest ((2 : ℝ) ^ k * 2 ^ k) 0 Representable.zero
  obtain ⟨m, e, hm, he, hv⟩ := F.rounds.mem ((2 : ℝ) ^ k * 2 ^ k)
  have hke := he k hk
  by_contra hne
  have hm0 : m ≠ 0 := by rintro rfl; apply hne; rw [hv]; simp
  have hge : (2 : ℝ) ^ k ≤ |F.rnd ((2 : ℝ) ^ k * 2 ^ k)| := by
    rw [hv, abs_mul, abs_of_pos (two_zpow_pos e), ← Int.cast_abs]
    have h1 : (1 : ℝ) ≤ ((|m| : ℤ) : ℝ) := by exact_mod_cast Int.one_le_abs hm0
    have h2 : (2 : ℝ) ^ k ≤ 2 ^ e := zpow_le_zpow_right₀ (by norm_num) hke
    have := two_zpow_pos e
    nlinarith
  rw [abs_of_nonneg (F.rounds.nonneg (by positivity))] at hge
  have hquarter : (2 : ℝ) ^ k ≤ 4⁻¹ := by
    calc (2 : ℝ) ^ k ≤ 2 ^ (-2 : ℤ) := zpow_le_zpow_right₀ (by norm_num) (by omega)
      _ = 4⁻¹ := by norm_num
  have hs : (2 : ℝ) ^ k * 2 ^ k ≤ 4⁻¹ * 2 ^ k := mul_le_mul_of_nonneg_right hquarter hpos.le
  have hqp : (0 : ℝ) < 2 ^ k * 2 ^ k := by positivity
  rw [zero_sub, abs_neg, abs_of_pos hqp, abs_of_nonneg (by linarith)] at hn
  linarith

/-- **C91** (the restriction is needed) In every format with a smallest exponent below `-1` – so for
`float` and `double` – `nearest` can miss a stored point: the square of a tiny difference underflows to zero, and the tree
answers with another point and another payload. -/
theorem C91_counterexample (F : FloatFormat) (k : ℤ) (hk : F.emin = some k) (hk1 : k < -1) (w : Nat)
    [BEq (Vec (Fl F) 3)] [LawfulBEq (Vec (Fl F) 3)] :
    ∃ (a b : Vec (Fl F) 3), a ≠ b ∧ ∃ t : KdTree (Fl F) 3 String w, t = KdTree.build w [(a, "a"), (b, "b")] ∧
      t.search b = true ∧ t.nearest b = .ok (a, "a") := by
  have hrep : Representable F.prec F.emin ((2 : ℝ) ^ k) := by
    apply representable_two_pow F.one_lt_prec
    intro k' hk'
    rw [hk, Option.some.injEq] at hk'
    omega
  have hpos := two_zpow_pos k
  have hsq := tiny_sq F k hk hk1
  set y : Fl F := ⟨(2 : ℝ) ^ k, hrep⟩ with hy
  have hyv : y.1 = (2 : ℝ) ^ k := rfl
  set a : Vec (Fl F) 3 := fun _ => 0 with ha
  set b : Vec (Fl F) 3 := fun _ => y with hb
  have hy0 : ¬ y < 0 := by rw [Fl.lt_iff, hyv]; exact not_lt.2 hpos.le
  have hne : a ≠ b := by
    intro h
    have := congrArg Subtype.val (congrFun h 0)
    simp only [ha, hb, hyv, Fl.val_zero] at this
    linarith
  have hsub : y - 0 = y := Fl.ext (by rw [Fl.val_sub, Fl.val_zero, sub_zero, F.rounds.exact y.2])
  have hmul : y * y = 0 := Fl.ext (by rw [Fl.val_mul, hyv]; exact hsq)
  have h00 : (0 : Fl F) + 0 = 0 := Fl.ext (by simp [F.rounds.zero])
  have hs0 : HasSqrt.sqrt (0 : Fl F) = 0 := Fl.ext (by simp [F.rounds.zero])
  have hdba : kdDistance b a = 0 := by
    unfold kdDistance
    simp only [ha, hb, hsub, hmul, Fin.foldl_succ, Fin.foldl_zero, h00, hs0]
  have hdab : kdDistance a b = 0 := by rw [kdDistance_comm_fl, hdba]
  have hdbb : kdDistance b b = 0 := kdDistance_self_fl b
  have hbeq : (a == b) = false := by simpa using hne
  refine ⟨a, b, hne, _, rfl, ?_, ?_⟩
  · have hlt : ∀ d : BitVec w, ¬ b (axisOf 3 d) < a (axisOf 3 d) := fun _ => hy0
    simp [KdTree.build, KdTree.insert, KdTree.empty, KdTree.search, insertHelper, searchHelper, hbeq, hlt]
  · have hlt : ∀ d : BitVec w, ¬ b (axisOf 3 d) < a (axisOf 3 d) := fun _ => hy0
    have hd : ∀ d : BitVec w, b (axisOf 3 d) - a (axisOf 3 d) = y := fun _ => hsub
    have habs : ¬ stdAbs y < (0 : Fl F) := by
      rw [Fl.lt_iff, Fl.val_stdAbs]; exact not_lt.2 (abs_nonneg _)
    have hsame : ∀ d : BitVec w, b (axisOf 3 d) - b (axisOf 3 d) = 0 :=
      fun _ => Fl.ext (by show F.rnd (y.1 - y.1) = 0; rw [sub_self, F.rounds.zero])
    simp [KdTree.build, KdTree.insert, KdTree.empty, KdTree.nearest, KdTree.nearestPath, insertHelper, nearestHelper, hbeq,
      hlt, hd, hdba, hdab, hdbb, hy0, habs, hsame, KdNode.get?]

/-! ### Concrete cases -/
section Examples
open Classical

/-- `double`, rounding to nearest. -/
noncomputable def binary64 : FloatFormat := ⟨53, by norm_num, some (-1074), by
  simpa using representable_two_pow (e := 0) (by norm_num) (by intro k hk; cases hk; norm_num), roundAway 53 (some (-1074)), roundAway_rounds (by norm_num) _⟩

/-- `float`, rounding to nearest. -/
noncomputable def binary32 : FloatFormat := ⟨24, by norm_num, some (-149), by
  simpa using representable_two_pow (e := 0) (by norm_num) (by intro k hk; cases hk; norm_num), roundAway 24 (some (-149)), roundAway_rounds (by norm_num) _⟩

/-- Integers up to `2^53` are `double`s ... -/
noncomputable def fl64 (n : ℤ) (h : |n| < 2 ^ 53 := by norm_num) : Fl binary64 :=
  ⟨n, n, 0, h, by intro k hk; cases hk; norm_num, by simp⟩

set_option exponentiation.threshold 600 in
/-- ... on the grid of C90. -/
theorem fl64_onGrid (n : ℤ) (h : |n| < 2 ^ 53) : OnGrid binary64.prec binary64.emin (fl64 n h).1 := by
  intro k hk
  cases hk
  refine ⟨n * 2 ^ 511, ?_⟩
  rw [show gridExp binary64.prec (-1074) = -(511 : ℕ) by decide]
  show (n : ℝ) = _
  rw [zpow_neg, zpow_natCast, Int.cast_mul, Int.cast_pow, Int.cast_ofNat, mul_assoc, mul_inv_cancel₀ (by positivity), mul_one]

/-- Three points in `double`; the query is one of them. -/
example : (KdTree.build 64 [(![fl64 1, fl64 2], "a"), (![fl64 3, fl64 7], "b"), (![fl64 1, fl64 2], "c")]).nearest ![fl64 3, fl64 7]
    = .ok ((![fl64 3, fl64 7] : Vec (Fl binary64) 2), "b") := by
  have h := C91_nearest_of_stored_partial (w := 64) (F := binary64) (D := 2)
    [(![fl64 1, fl64 2], "a"), (![fl64 3, fl64 7], "b"), (![fl64 1, fl64 2], "c")] ?_ (![fl64 3, fl64 7], "b") ?_
  · exact h
  · intro a ha b hb hne
    refine ⟨0, ?_⟩
    simp only [List.mem_cons, List.not_mem_nil, or_false] at ha hb
    rcases ha with rfl | rfl | rfl <;> rcases hb with rfl | rfl | rfl <;>
      first
        | exact absurd rfl hne
        | exact resolved_int binary64 (m := 1) (n := 3) (by norm_num)
        | exact resolved_int binary64 (m := 3) (n := 1) (by norm_num)
  · have hne : ¬ fl64 3 = fl64 1 := by
      intro h
      have := congrArg Subtype.val h
      simp [fl64] at this
    simp [Spec.firstEntries, hne]

/-- `double` and `float` have the exponent range of C91. -/
example (w : Nat) : ∃ (a b : Vec (Fl binary64) 3), a ≠ b ∧
    (KdTree.build w [(a, "a"), (b, "b")] : KdTree (Fl binary64) 3 String w).nearest b = .ok (a, "a") := by
  obtain ⟨a, b, h, t, rfl, _, h2⟩ := C91_counterexample binary64 (-1074) rfl (by norm_num) w
  exact ⟨a, b, h, h2⟩
/-- C90 on three points. -/
example : ∃ e : Vec (Fl binary64) 2 × String, (KdTree.build 64 [(![fl64 1, fl64 2], "a"), (![fl64 3, fl64 7], "b"), (![fl64 1, fl64 2], "c")]).nearest ![fl64 3, fl64 6] = .ok e ∧
    (1 - (2 : ℝ)⁻¹ ^ 53) ^ 7 * Spec.dist (Fl.toReal e.1) (Fl.toReal ![fl64 3, fl64 6]) ^ 2 ≤
      (1 + (2 : ℝ)⁻¹ ^ 53) ^ 7 * Spec.dist (Fl.toReal (![fl64 3, fl64 7] : Vec (Fl binary64) 2)) (Fl.toReal ![fl64 3, fl64 6]) ^ 2 := by
  obtain ⟨e, -, h1, h2⟩ := (C90_nearest (w := 64) [((![fl64 1, fl64 2] : Vec (Fl binary64) 2), "a"), (![fl64 3, fl64 7], "b"), (![fl64 1, fl64 2], "c")]
    ![fl64 3, fl64 6] (by
      intro e he i
      simp only [List.mem_cons, List.not_mem_nil, or_false] at he
      rcases he with rfl | rfl | rfl <;> fin_cases i <;> exact fl64_onGrid _ (by norm_num))
    (by intro i; fin_cases i <;> exact fl64_onGrid _ (by norm_num))).2 (by simp)
  exact ⟨e, h1, h2 (![fl64 3, fl64 7], "b") (by simp)⟩
end Examples
end Verif
