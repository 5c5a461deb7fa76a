import Verif.Proofs.Swap
import Verif.Props.FloatSolid
import Verif.Props.Agree

set_option linter.unusedSectionVars false

/-
C137: swapping the two shapes does not change the answer.
-/
namespace Verif

section
variable {T : Type u} [Zero T] [One T] [Add T] [Sub T] [Mul T] [Div T] [Neg T] [LT T] [DecidableLT T] [SignedOps T] [Tol T]

/-- **C137** (segments of the plane) With exact or rounded numbers, whether an intersection is found, and whether the debug assertion fails, does
not depend on which segment comes first; a debug build returns the same point. -/
theorem C137_segments2 [DecidableEq T] (eps : T) (hz : ∀ x : T, Tol.isZero (-x) eps = Tol.isZero x eps) (dbg : Bool) (a b : Segment T 2) :
    (intersectSegment2 dbg b a eps).map Option.isSome = (intersectSegment2 dbg a b eps).map Option.isSome ∧
    intersectSegment2 true b a eps = intersectSegment2 true a b eps := by
  have hw : vsub a.source b.source = fun i => -vsub b.source a.source i := so_vsub _ _
  obtain ⟨e0, e1, e2⟩ := so_params (vsub a.target a.source) (vsub b.target b.source) (vsub b.source a.source)
  have e : ∀ t s : T, (Tol.isLess t 0 eps || Tol.isGreater t 1 eps || Tol.isLess s 0 eps || Tol.isGreater s 1 eps) =
      (Tol.isLess s 0 eps || Tol.isGreater s 1 eps || Tol.isLess t 0 eps || Tol.isGreater t 1 eps) := by
    intro t s
    cases Tol.isLess t 0 eps <;> cases Tol.isGreater t 1 eps <;> cases Tol.isLess s 0 eps <;> cases Tol.isGreater s 1 eps <;> rfl
  simp only [intersectSegment2]
  rw [hw]
  dsimp only
  rw [e0, e1, e2, hz, e]
  generalize (vsub a.target a.source 0 * -vsub b.source a.source 1 - vsub a.target a.source 1 * -vsub b.source a.source 0) /
    (vsub a.target a.source 0 * vsub b.target b.source 1 - vsub b.target b.source 0 * vsub a.target a.source 1) = s
  generalize (vsub b.source a.source 0 * vsub b.target b.source 1 - vsub b.source a.source 1 * vsub b.target b.source 0) /
    (vsub a.target a.source 0 * vsub b.target b.source 1 - vsub b.target b.source 0 * vsub a.target a.source 1) = t
  generalize hp : vadd a.source (vscale (vsub a.target a.source) t) = p
  generalize hq : vadd b.source (vscale (vsub b.target b.source) s) = q
  split_ifs
  · exact ⟨rfl, rfl⟩
  · exact ⟨rfl, rfl⟩
  · by_cases h : p 0 = q 0 ∧ p 1 = q 1
    · have hpq : p = q := by funext i; fin_cases i; exacts [h.1, h.2]
      subst hpq
      exact ⟨rfl, rfl⟩
    · have h1 : (decide (p 0 = q 0) && decide (p 1 = q 1)) = false := by
        rw [Bool.eq_false_iff]; simpa using h
      have h2 : (decide (q 0 = p 0) && decide (q 1 = p 1)) = false := by
        rw [Bool.eq_false_iff]; intro hc; exact h (by simp only [Bool.and_eq_true, decide_eq_true_eq] at hc; exact ⟨hc.1.symm, hc.2.symm⟩)
      rw [h1, h2]
      cases dbg <;> exact ⟨rfl, rfl⟩

/-- **C137** (lines of the plane) -/
theorem C137_lines2 (eps : T) (a b : Line T 2) : (intersectLine2 b a eps).isSome = (intersectLine2 a b eps).isSome := by
  simp only [intersectLine2]
  have e : a.direction 0 * b.direction 1 - b.direction 0 * a.direction 1 = -(b.direction 0 * a.direction 1 - a.direction 0 * b.direction 1) :=
    (SignedOps.neg_sub _ _).symm
  rw [e, SignedOps.abs_neg]
  split_ifs <;> rfl

/-- **C137** (lines of space) -/
theorem C137_lines3 [HasSqrt T] (eps : T) (a b : Line T 3) : (intersectLine3 b a eps).isSome = (intersectLine3 a b eps).isSome := by
  simp only [intersectLine3]
  rw [cpol_swap a.origin a.direction b.origin b.direction]
  cases closestPointOnLineParameters a.origin a.direction b.origin b.direction with
  | none => rfl
  | some p =>
    simp only [Option.map_some]
    rw [so_length_vsub]
    split_ifs <;> rfl

/-- **C137** (segments of space) -/
theorem C137_segments3 (eps : T) (a b : Segment T 3) : (intersectSegment3 b a eps).isSome = (intersectSegment3 a b eps).isSome := by
  simp only [intersectSegment3]
  rw [cpol_swap a.source (vsub a.target a.source) b.source (vsub b.target b.source)]
  cases closestPointOnLineParameters a.source (vsub a.target a.source) b.source (vsub b.target b.source) eps with
  | none => rfl
  | some p =>
    simp only [Option.map_some]
    have e : (Tol.isLess p.t 0 eps || Tol.isGreater p.t 1 eps || Tol.isLess p.s 0 eps || Tol.isGreater p.s 1 eps) =
        (Tol.isLess p.s 0 eps || Tol.isGreater p.s 1 eps || Tol.isLess p.t 0 eps || Tol.isGreater p.t 1 eps) := by
      cases Tol.isLess p.t 0 eps <;> cases Tol.isGreater p.t 1 eps <;> cases Tol.isLess p.s 0 eps <;> cases Tol.isGreater p.s 1 eps <;> rfl
    rw [e]
    split_ifs <;> rfl

/-- **C137** (distance of lines) -/
theorem C137_distance [HasSqrt T] (dbg : Bool) (a b : Line T 3) (hn : isZero (length (cross a.direction b.direction)) = false) :
    distLineLine dbg b a = distLineLine dbg a b := by
  have hl : length (cross b.direction a.direction) = length (cross a.direction b.direction) := by
    rw [so_cross b.direction, length, so_dot_neg_neg]; rfl
  simp only [distLineLine]
  rw [hl, hn, so_vsub b.origin, so_cross b.direction, so_dot_neg_neg]
  simp only [geoAssert]
  cases dbg <;> cases isEq (length a.direction) 1 <;> cases isEq (length b.direction) 1 <;> rfl
end

/-! ### Exact numbers -/
section
open Matrix
variable {K : Type*} [Field K] [LinearOrder K] [IsStrictOrderedRing K] [Tol K] [LawfulTol K]

/-- **C137** (lines of the plane, exact numbers) The same point is found. -/
theorem C137_lines2_point {eps : K} (he : 0 < eps) (a b : Line K 2) : intersectLine2 b a eps = intersectLine2 a b eps := by
  simp only [intersectLine2]
  have e : a.direction 0 * b.direction 1 - b.direction 0 * a.direction 1 = -(b.direction 0 * a.direction 1 - a.direction 0 * b.direction 1) := by ring
  rw [e, SignedOps.abs_neg]
  split_ifs with h
  · rfl
  · have h0 : b.direction 0 * a.direction 1 - a.direction 0 * b.direction 1 ≠ 0 := by
      intro h0
      rw [h0] at h
      exact TolE.ne_zero he (by simpa using h) (by simp [stdAbs])
    congr 1
    funext i
    simp only [vadd, vscale, vsub]
    rw [div_neg, mul_neg, ← sub_eq_add_neg, ← mul_div_assoc, ← mul_div_assoc, eq_sub_iff_add_eq, add_assoc, ← add_div, ← eq_sub_iff_add_eq',
      div_eq_iff h0]
    fin_cases i <;> simp only [Fin.zero_eta, Fin.mk_one] <;> ring

/-- **C137** (segments of the plane, exact numbers) The same point is found, in debug and release builds. -/
theorem C137_segments2_point {eps : K} (he : 0 < eps) (hz : ∀ x : K, Tol.isZero (-x) eps = Tol.isZero x eps) (dbg : Bool) (a b : Segment K 2) :
    intersectSegment2 dbg b a eps = intersectSegment2 dbg a b eps := by
  have key : ∀ (c : Bool) (v r : Option (Vec K 2)), (do geoAssert true c; return v : Res _) = .ok r → (do geoAssert false c; return v : Res _) = .ok r := by
    intro c v r h
    cases c
    · cases h
    · exact h
  have hr : ∀ (x y : Segment K 2) r, intersectSegment2 true x y eps = .ok r → intersectSegment2 false x y eps = .ok r := by
    intro x y r h
    simp only [intersectSegment2] at h ⊢
    split_ifs at h ⊢
    · exact h
    · exact h
    · exact key _ _ r h
  have h := (C137_segments2 eps hz true a b).2
  cases dbg
  · obtain ⟨r, h1, -⟩ := C30_sound true he a.source a.target b.source b.target
    rw [hr a b r h1, hr b a r (h.trans h1)]
  · exact h
end

section
open Matrix
variable [Tol ℝ] [LawfulTol ℝ]

/-- **C137** (lines of space, exact numbers) The points found are at most the tolerance apart. -/
theorem C137_lines3_point {ε : ℝ} (he : 0 < ε) (a b : Line ℝ 3) (p q : Vec ℝ 3) (hp : intersectLine3 a b ε = some p)
    (hq : intersectLine3 b a ε = some q) : Spec.dist p q ≤ ε := by
  simp only [intersectLine3] at hp hq
  rw [cpol_swap a.origin a.direction b.origin b.direction] at hq
  cases hc : closestPointOnLineParameters a.origin a.direction b.origin b.direction with
  | none => rw [hc] at hp; cases hp
  | some c =>
    rw [hc] at hp hq
    simp only [Option.map_some] at hp hq
    split_ifs at hp hq with h1 h2
    obtain rfl := Option.some.inj hp
    obtain rfl := Option.some.inj hq
    have := TolE.of_zero he h1
    rw [length_vsub] at this
    exact (le_abs_self _).trans this

/-- **C137** (distance of exactly parallel lines) -/
theorem C137_distance_parallel (dbg : Bool) (lo d ro e : Vec ℝ 3) (hd : d ≠ 0) (he : e ≠ 0) (hp : Spec.Parallel d e) :
    distLineLine dbg (Line.make lo d) (Line.make ro e) = distLineLine dbg (Line.make ro e) (Line.make lo d) := by
  have hep := eps_pos (K := ℝ)
  have hcl : ∀ {d e : Vec ℝ 3}, Spec.Parallel d e → isZero (length (cross (normalize d) (normalize e))) = true := by
    intro d e hp
    rw [length_eq, cross_dp_self, gram_eq_zero_of_parallel (parallel_normalize hp), Real.sqrt_zero]
    exact isZero_true (by simpa using hep)
  have hp' : Spec.Parallel e d := fun i j => by have := hp i j; linarith
  obtain ⟨x, hx, hx'⟩ := C24_partial dbg lo d ro e hd he (.inl hp)
  obtain ⟨y, hy, hy'⟩ := C24_partial dbg ro e lo d he hd (.inl hp')
  rw [distLineLine_ok dbg _ _ _ _ hd he, if_pos (hcl hp)] at hx
  rw [distLineLine_ok dbg _ _ _ _ he hd, if_pos (hcl hp')] at hy
  have hx0 : 0 ≤ x := by rw [← Except.ok.inj hx]; exact length_nonneg _
  have hy0 : 0 ≤ y := by rw [← Except.ok.inj hy]; exact length_nonneg _
  have := hx'.unique (isDistance_symm hy')
  rw [abs_of_nonneg hx0, abs_of_nonneg hy0] at this
  rw [distLineLine_ok dbg _ _ _ _ hd he, if_pos (hcl hp), distLineLine_ok dbg _ _ _ _ he hd, if_pos (hcl hp'), hx, hy, this]

theorem nearly_parallel : Spec.gram (normalize (![1, eps, 0] : Vec ℝ 3)) (normalize ![1, 0, 0]) < eps ^ 2 := by
  have hep := eps_pos (K := ℝ)
  have he : (![1, 0, 0] : Vec ℝ 3) ≠ 0 := by intro h; have := congrFun h 0; simp at this
  have hd : (![1, eps, 0] : Vec ℝ 3) ≠ 0 := by intro h; have := congrFun h 0; simp at this
  have hg := gram_normalize hd he
  have e1 : Spec.gram (![1, eps, 0] : Vec ℝ 3) ![1, 0, 0] = eps ^ 2 := by
    simp [Spec.gram, Fin.sum_univ_three]
  have e2 : ((![1, eps, 0] : Vec ℝ 3) ⬝ᵥ ![1, eps, 0]) * ((![1, 0, 0] : Vec ℝ 3) ⬝ᵥ ![1, 0, 0]) = 1 + eps ^ 2 := by
    simp [dotProduct, Fin.sum_univ_three, sq]
  rw [e1, e2] at hg
  have h1 : (0 : ℝ) < 1 + eps ^ 2 := by positivity
  have : Spec.gram (normalize (![1, eps, 0] : Vec ℝ 3)) (normalize ![1, 0, 0]) = eps ^ 2 / (1 + eps ^ 2) := by
    rw [eq_div_iff h1.ne']; exact hg
  rw [this, div_lt_iff₀ h1]
  nlinarith [pow_pos hep 4]

theorem nearly_parallel_zero {d e : Vec ℝ 3} (hg : Spec.gram (normalize d) (normalize e) < eps ^ 2) : isZero (length (cross (normalize d) (normalize e))) = true := by
  have hep := eps_pos (K := ℝ)
  rw [length_eq, cross_dp_self]
  refine isZero_true ?_
  rw [abs_of_nonneg (Real.sqrt_nonneg _), Real.sqrt_lt' hep]
  exact hg

theorem nearly_parallel_dist (dbg : Bool) (l : ℝ) (hl : 0 ≤ l) :
    distLineLine dbg (Line.make ![l / eps, l, 0] ![1, eps, 0]) (Line.make 0 ![1, 0, 0]) = .ok l := by
  have he : (![1, 0, 0] : Vec ℝ 3) ≠ 0 := by intro h; have := congrFun h 0; simp at this
  have hd : (![1, eps, 0] : Vec ℝ 3) ≠ 0 := by intro h; have := congrFun h 0; simp at this
  have ue : (![1, 0, 0] : Vec ℝ 3) ⬝ᵥ ![1, 0, 0] = 1 := by simp [dotProduct, Fin.sum_univ_three]
  rw [distLineLine_ok dbg _ _ _ _ hd he, if_pos (nearly_parallel_zero nearly_parallel)]
  congr 1
  rw [Line.make, normalize_of_unit ue]
  simp only [distVecLine, rejection, projection, vsub_eq, vscale_eq, dot_eq, ue, length_eq]
  rw [Real.sqrt_eq_iff_mul_self_eq (dp_self_nonneg _) hl]
  simp [dotProduct, Fin.sum_univ_three]

/-- **C137** is false for the distance of nearly parallel lines: the distance in one order is zero, in the other order as large as one likes. -/
theorem C137_distance_counterexample (dbg : Bool) (l : ℝ) (hl : 0 ≤ l) :
    ∃ lo d ro e : Vec ℝ 3, d ≠ 0 ∧ e ≠ 0 ∧ distLineLine dbg (Line.make lo d) (Line.make ro e) = .ok l ∧
      distLineLine dbg (Line.make ro e) (Line.make lo d) = .ok 0 := by
  have hep := eps_pos (K := ℝ)
  have he : (![1, 0, 0] : Vec ℝ 3) ≠ 0 := by intro h; have := congrFun h 0; simp at this
  have hd : (![1, eps, 0] : Vec ℝ 3) ≠ 0 := by intro h; have := congrFun h 0; simp at this
  refine ⟨![l / eps, l, 0], ![1, eps, 0], 0, ![1, 0, 0], hd, he, nearly_parallel_dist dbg l hl, ?_⟩
  rw [distLineLine_ok dbg _ _ _ _ he hd, if_pos (nearly_parallel_zero (by rw [gram_comm]; exact nearly_parallel))]
  congr 1
  refine (C20_point_line _ _ _ hd).unique (isDistance_of_mem ⟨-(l / eps), ?_⟩)
  rw [pointAt_eq]
  funext i
  fin_cases i <;> simp
  field_simp
  ring

/-- **C137** is false for the points of segments in space: swapped, the segments get a point at any distance `h` from the first one. -/
theorem C137_segments3_counterexample {ε : ℝ} (he : 0 < ε) (h : ℝ) (hh : 0 ≤ h) :
    ∃ a b : Segment ℝ 3, ∃ p q, intersectSegment3 a b ε = some p ∧ intersectSegment3 b a ε = some q ∧ Spec.dist p q = h := by
  have hg : Spec.gram ((![1 + ε, 0, 0] : Vec ℝ 3) - ![-(1 + ε), 0, 0]) (![0, 1 + ε, h] - ![0, -(1 + ε), h]) = 16 * (1 + ε) ^ 4 := by
    simp [gram_eq, dotProduct, Fin.sum_univ_three]; ring
  have hbig : ε < 16 * (1 + ε) ^ 4 := by
    have := one_le_pow₀ (n := 3) (by linarith : 1 ≤ 1 + ε)
    nlinarith [pow_succ (1 + ε) 3]
  have key : ∃ c, closestPointOnLineParameters ![-(1 + ε), 0, 0] ((![1 + ε, 0, 0] : Vec ℝ 3) - ![-(1 + ε), 0, 0]) ![0, -(1 + ε), h]
      (![0, 1 + ε, h] - ![0, -(1 + ε), h]) ε = some c ∧ c.t = 1 / 2 ∧ c.s = 1 / 2 := by
    rcases closest_cases he ![-(1 + ε), 0, 0] ((![1 + ε, 0, 0] : Vec ℝ 3) - ![-(1 + ε), 0, 0]) ![0, -(1 + ε), h] (![0, 1 + ε, h] - ![0, -(1 + ε), h])
      with ⟨-, h2⟩ | ⟨p, h1, -, -, ho1, ho2⟩
    · have hz := TolE.of_zero he h2
      rw [hg, abs_of_nonneg (by positivity)] at hz; linarith
    simp [dotProduct, Fin.sum_univ_three] at ho1 ho2
    have h0 : (0 : ℝ) < 1 + ε := by linarith
    refine ⟨p, h1, ?_, ?_⟩
    · rcases ho1 with ho1 | ho1 <;> nlinarith
    · rcases ho2 with ho2 | ho2 <;> nlinarith
  obtain ⟨c, hc, ht, hs⟩ := key
  refine ⟨⟨![-(1 + ε), 0, 0], ![1 + ε, 0, 0]⟩, ⟨![0, -(1 + ε), h], ![0, 1 + ε, h]⟩, 0, ![0, 0, h], ?_, ?_, ?_⟩
  · simp only [intersectSegment3, vsub_eq]
    rw [hc]
    simp only [TolE.greater_eq he, ht, hs]
    rw [TolE.less_false he (by linarith), TolE.less_false he (by linarith)]
    simp only [Bool.or_self, Bool.false_eq_true, if_false, vadd_eq, vscale_eq]
    congr 1; funext i; fin_cases i <;> simp; ring
  · simp only [intersectSegment3, vsub_eq]
    rw [cpol_swap, hc]
    simp only [Option.map_some, TolE.greater_eq he, ht, hs]
    rw [TolE.less_false he (by linarith), TolE.less_false he (by linarith)]
    simp only [Bool.or_self, Bool.false_eq_true, if_false, vadd_eq, vscale_eq]
    congr 1; funext i; fin_cases i <;> simp; ring
  · rw [spec_dist_eq, Real.sqrt_eq_iff_mul_self_eq (dp_self_nonneg _) hh]
    simp [dotProduct, Fin.sum_univ_three]
end

/-! ### Concrete cases -/
section Examples
open Classical Matrix
attribute [local instance] tol64 realTol realTol_lawful

/-- Two crossing segments in `double`. -/
noncomputable def crossA : Segment (Fl binary64) 2 := ⟨![fl64 3, fl64 0], ![fl64 0, fl64 7]⟩
noncomputable def crossB : Segment (Fl binary64) 2 := ⟨![fl64 0, fl64 0], ![fl64 5, fl64 5]⟩

example : (intersectSegment2 false crossB crossA).map Option.isSome = (intersectSegment2 false crossA crossB).map Option.isSome :=
  (C137_segments2 Tol.eps (fun x => by show decide (|-x.1| < _) = decide (|x.1| < _); rw [abs_neg]) false crossA crossB).1

example : (intersectLine2 ⟨![fl64 0, fl64 0], ![fl64 1, fl64 1]⟩ ⟨![fl64 3, fl64 0], ![fl64 0, fl64 1]⟩ : Option (Vec (Fl binary64) 2)).isSome =
    (intersectLine2 ⟨![fl64 3, fl64 0], ![fl64 0, fl64 1]⟩ ⟨![fl64 0, fl64 0], ![fl64 1, fl64 1]⟩ : Option (Vec (Fl binary64) 2)).isSome :=
  C137_lines2 _ _ _

example : (intersectLine3 ⟨axis64.source, axis64.target⟩ ⟨axis64.target, axis64.source⟩ : Option (Vec (Fl binary64) 3)).isSome =
    (intersectLine3 ⟨axis64.target, axis64.source⟩ ⟨axis64.source, axis64.target⟩ : Option (Vec (Fl binary64) 3)).isSome :=
  C137_lines3 _ _ _

example : (intersectSegment3 ⟨vec3 (fl64 1) (fl64 6) (fl64 3), vec3 (fl64 4) (fl64 2) (fl64 3)⟩ axis64).isSome =
    (intersectSegment3 axis64 ⟨vec3 (fl64 1) (fl64 6) (fl64 3), vec3 (fl64 4) (fl64 2) (fl64 3)⟩).isSome :=
  C137_segments3 _ _ _

example : distLineLine true (⟨0, vec3 0 1 0⟩ : Line ℝ 3) ⟨vec3 0 0 5, vec3 1 0 0⟩ = distLineLine true (⟨vec3 0 0 5, vec3 1 0 0⟩ : Line ℝ 3) ⟨0, vec3 0 1 0⟩ := by
  refine C137_distance true _ _ (isZero_false ?_)
  show (1 / 1000 : ℝ) < |length (cross (vec3 1 0 0) (vec3 0 1 0))|
  have : length (cross (vec3 1 0 0) (vec3 0 1 0) : Vec ℝ 3) = 1 := by
    rw [length_eq]; simp [dotProduct, Fin.sum_univ_three, cross, vec3]
  rw [this]; norm_num

example : intersectLine2 (⟨![0, 0], ![1, 1]⟩ : Line ℝ 2) ⟨![3, 0], ![0, 1]⟩ 1 = intersectLine2 ⟨![3, 0], ![0, 1]⟩ ⟨![0, 0], ![1, 1]⟩ 1 :=
  C137_lines2_point one_pos _ _

example : intersectSegment2 false (⟨![0, 0], ![5, 5]⟩ : Segment ℝ 2) ⟨![3, 0], ![0, 7]⟩ = intersectSegment2 false ⟨![3, 0], ![0, 7]⟩ ⟨![0, 0], ![5, 5]⟩ :=
  C137_segments2_point eps_pos (fun x => by
    show (!decide (-x + 1 / 1000 < 0) && !decide (0 + 1 / 1000 < -x)) = (!decide (x + 1 / 1000 < 0) && !decide (0 + 1 / 1000 < x))
    rw [Bool.and_comm]; congr 3 <;> rw [eq_iff_iff] <;> constructor <;> intro h <;> linarith) false _ _

/-- Two lines of space one half of the tolerance apart: the points found lie on different lines. -/
example : ∃ p q, intersectLine3 (Line.make 0 (vec3 1 0 0)) (Line.make (vec3 0 0 (1 / 2000)) (vec3 0 1 0)) (1 / 1000 : ℝ) = some p ∧
    intersectLine3 (Line.make (vec3 0 0 (1 / 2000)) (vec3 0 1 0)) (Line.make 0 (vec3 1 0 0)) (1 / 1000 : ℝ) = some q ∧ Spec.dist p q ≤ 1 / 1000 := by
  have hx : (vec3 1 0 0 : Vec ℝ 3) ≠ 0 := fun h => by have := congrFun h 0; simp [vec3] at this
  have hy : (vec3 0 1 0 : Vec ℝ 3) ≠ 0 := fun h => by have := congrFun h 1; simp [vec3] at this
  have h1 : (intersectLine3 (Line.make 0 (vec3 1 0 0)) (Line.make (vec3 0 0 (1 / 2000)) (vec3 0 1 0)) (1 / 1000 : ℝ)).isSome = true := by
    by_contra hn
    rw [Bool.not_eq_true, Option.isSome_eq_false_iff, Option.isNone_iff_eq_none] at hn
    rcases C29_none (by norm_num) _ _ _ _ hx hy hn with h | ⟨m, hm, hle⟩
    · refine h ?_
      show Spec.AngleAbove (1 / 1000) _ _; unfold Spec.AngleAbove Spec.gram; simp [Fin.sum_univ_three, vec3]; norm_num
    · have := isDistance_le hm (p := 0) (q := vec3 0 0 (1 / 2000)) ⟨0, by rw [pointAt_eq]; simp⟩ ⟨0, by rw [pointAt_eq]; simp⟩
      rw [spec_dist_eq] at this
      have e : (0 - vec3 0 0 (1 / 2000)) ⬝ᵥ (0 - vec3 0 0 (1 / 2000) : Vec ℝ 3) = (1 / 2000) ^ 2 := by
        simp [dotProduct, Fin.sum_univ_three, vec3]; norm_num
      rw [e, Real.sqrt_sq (by norm_num)] at this
      linarith
  have h2 := C137_lines3 (1 / 1000 : ℝ) (Line.make 0 (vec3 1 0 0)) (Line.make (vec3 0 0 (1 / 2000)) (vec3 0 1 0))
  rw [h1] at h2
  obtain ⟨p, hp⟩ := Option.isSome_iff_exists.1 h1
  obtain ⟨q, hq⟩ := Option.isSome_iff_exists.1 h2
  exact ⟨p, q, hp, hq, C137_lines3_point (by norm_num) _ _ p q hp hq⟩

example : distLineLine true (Line.make 0 (vec3 1 0 0)) (Line.make (vec3 0 3 4) (vec3 2 0 0)) =
    distLineLine true (Line.make (vec3 0 3 4) (vec3 2 0 0)) (Line.make (0 : Vec ℝ 3) (vec3 1 0 0)) :=
  C137_distance_parallel true _ _ _ _ (fun h => by have := congrFun h 0; simp [vec3] at this) (fun h => by have := congrFun h 0; simp [vec3] at this)
    (fun i j => by fin_cases i <;> fin_cases j <;> simp [vec3])
example := C137_distance_counterexample true 1000 (by norm_num)
example := C137_segments3_counterexample (ε := 1 / 1000) (by norm_num) 1000 (by norm_num)
end Examples
end Verif
