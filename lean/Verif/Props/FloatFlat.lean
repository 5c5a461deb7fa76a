import Verif.Proofs.FloatFlat

set_option linter.unusedSectionVars false

/-
C112: vertex normals and the triangulation of flat faces, in floating point.
-/
namespace Verif
open Spec

variable {F : FloatFormat} [BEq (Vec (Fl F) 3)] [LawfulBEq (Vec (Fl F) 3)]

/-- The triangle is parallel to a coordinate plane. -/
def AxisParallel (t : Vec (Fl F) 3 × Vec (Fl F) 3 × Vec (Fl F) 3) : Prop := ∃ c, t.2.1 c = t.1 c ∧ t.2.2 c = t.1 c

/-- **C112** The normal of a facet parallel to a coordinate plane is computed without any error. -/
theorem C112_facet (dbg : Bool) (M : Nat) (ts : List (Vec (Fl F) 3 × Vec (Fl F) 3 × Vec (Fl F) 3)) (hM : 3 * ts.length < M)
    (m : HalfedgeMesh (Vec (Fl F) 3)) (hb : BuiltFrom dbg M ts m) (hp : 9 ≤ F.prec) (j : Nat) (hj : j < ts.length) (hax : AxisParallel ts[j])
    (hA0 : 0 < twiceArea (trueTriangle ts[j]))
    (hsmall : ∀ k, F.emin = some k → k ≤ -2 * (F.prec : ℤ) ∧ (2 : ℝ) ^ ((k + 1) / 2) ≤ (2 : ℝ)⁻¹ ^ F.prec * (twiceArea (trueTriangle ts[j]) / 2))
    (hshape : 16 * ((2 : ℝ)⁻¹ ^ F.prec * sidesProduct (trueTriangle ts[j])) ≤ twiceArea (trueTriangle ts[j])) :
    ∃ f n, vecGet m.facets j = .ok f ∧ calcFacetNormal m f = .ok n ∧ IsNormal (trueTriangle ts[j]) fun i => (n i).1 := by
  obtain ⟨o, rfl⟩ := hb.eq hM
  have hl : (weld (corners ts)).2.length = 3 * ts.length := by rw [weld_length, corners_length]
  obtain ⟨h1, -, -⟩ := normalOf_err ts[j] hp hA0 hsmall hshape
  obtain ⟨c, c1, c2⟩ := hax
  obtain ⟨a, -, h2, h3⟩ := normalOf_along hp c ts[j] c1 c2 hA0 hsmall hshape
  refine ⟨_, _, meshOfO_facet _ _ _ (by omega), calcFacetNormal_built o ts j hj, ?_⟩
  rw [h2]
  rw [h3] at h1
  convert h1 using 2 with i
  unfold along
  split <;> rfl

/-- **C112** A vertex all of whose facets are parallel to coordinate planes has bitwise the same computed normal in all meshes in which its facets have
the same (exact) normals, however the faces are divided into triangles. -/
theorem C112_partial (dbg dbg' : Bool) (M M' : Nat) (ts ts' : List (Vec (Fl F) 3 × Vec (Fl F) 3 × Vec (Fl F) 3))
    (hM : 3 * ts.length < M) (hM' : 3 * ts'.length < M') (m m' : HalfedgeMesh (Vec (Fl F) 3)) (hb : BuiltFrom dbg M ts m)
    (hb' : BuiltFrom dbg' M' ts' m') (hp : 9 ≤ F.prec) (hmin : ∀ k, F.emin = some k → k ≤ -4 * (F.prec : ℤ)) {δ δ' : ℝ}
    (i i' : Nat) (hi : i < m.points.length) (hi' : i' < m'.points.length) (he : m.points[i] = m'.points[i'])
    (hsh : ∀ t ∈ ts, m.points[i] ∈ [t.1, t.2.1, t.2.2] → Shaped δ t ∧ AxisParallel t)
    (hsh' : ∀ t ∈ ts', m.points[i] ∈ [t.1, t.2.1, t.2.2] → Shaped δ' t ∧ AxisParallel t)
    (hflat : ∀ n, (∃ t ∈ ts, m.points[i] ∈ [t.1, t.2.1, t.2.2] ∧ IsNormal (trueTriangle t) n) ↔
      ∃ t ∈ ts', m.points[i] ∈ [t.1, t.2.1, t.2.2] ∧ IsNormal (trueTriangle t) n) :
    ∃ ns ns' v, calcVertexNormals m = .ok ns ∧ calcVertexNormals m' = .ok ns' ∧ ns[i]? = some v ∧ ns'[i']? = some v := by
  obtain ⟨o, rfl⟩ := hb.eq hM
  obtain ⟨o', rfl⟩ := hb'.eq hM'
  obtain ⟨ns, h1, h2⟩ := calcVertexNormals_gen o ts
  obtain ⟨ns', h1', h2'⟩ := calcVertexNormals_gen o' ts'
  obtain ⟨l, h3, h4⟩ := h2 i hi
  obtain ⟨l', h3', h4'⟩ := h2' i' hi'
  refine ⟨ns, ns', _, h1, h1', h4, ?_⟩
  have he' : (weld (corners ts)).1[i]'hi = (weld (corners ts')).1[i']'hi' := he
  change ∀ t ∈ ts, (weld (corners ts)).1[i]'hi ∈ _ → _ at hsh
  change ∀ t ∈ ts', (weld (corners ts)).1[i]'hi ∈ _ → _ at hsh'
  change ∀ n, (∃ t ∈ ts, (weld (corners ts)).1[i]'hi ∈ [t.1, t.2.1, t.2.2] ∧ _) ↔
    (∃ t ∈ ts', (weld (corners ts)).1[i]'hi ∈ [t.1, t.2.1, t.2.2] ∧ _) at hflat
  rw [h4', sorted_unique_eq (l := l') (l' := l) fun y => ?_]
  rw [h3, h3', ← he']
  -- the computed normal is the exact one
  have key : ∀ (δ : ℝ) (t : Vec (Fl F) 3 × Vec (Fl F) 3 × Vec (Fl F) 3), Shaped δ t → AxisParallel t →
      ∀ n : Vec (Fl F) 3, n = normalize (normalOf t) ↔ IsNormal (trueTriangle t) (Fl.vals n) := by
    intro δ t hs ⟨c, c1, c2⟩ n
    have hsm : ∀ k, F.emin = some k → k ≤ -2 * (F.prec : ℤ) ∧ (2 : ℝ) ^ ((k + 1) / 2) ≤ (2 : ℝ)⁻¹ ^ F.prec * (twiceArea (trueTriangle t) / 2) :=
      fun k hk => ⟨by have := hmin k hk; omega, hs.small k hk⟩
    obtain ⟨a, ha, e1, e2⟩ := normalOf_along hp c t c1 c2 hs.pos hsm hs.angle
    have hnd : NonDegenerate (trueTriangle t) := by
      refine (nonDegenerate_iff _).2 fun h0 => ?_
      have := hs.pos
      rw [twiceArea_eq, h0] at this
      simp [Spec.norm] at this
    rw [isNormal_iff hnd, e1, renormalize_along c a ha, e2]
    constructor
    · rintro rfl
      funext i
      show (along c a i).1 = along c a.1 i
      unfold along
      split <;> rfl
    · intro h
      funext i
      apply Fl.ext
      have := congrFun h i
      change (n i).1 = _ at this
      rw [this]
      unfold along
      split <;> rfl
  have hk : ∀ (δ : ℝ) (ks : List (Vec (Fl F) 3 × Vec (Fl F) 3 × Vec (Fl F) 3)) (p : Vec (Fl F) 3),
      (∀ t ∈ ks, p ∈ [t.1, t.2.1, t.2.2] → Shaped δ t ∧ AxisParallel t) →
      ((∃ t ∈ ks, p ∈ [t.1, t.2.1, t.2.2] ∧ y = normalize (normalOf t)) ↔
        ∃ t ∈ ks, p ∈ [t.1, t.2.1, t.2.2] ∧ IsNormal (trueTriangle t) (Fl.vals y)) := by
    intro δ ks p h
    constructor
    · rintro ⟨t, a, b, c⟩
      exact ⟨t, a, b, (key δ t (h t a b).1 (h t a b).2 y).1 c⟩
    · rintro ⟨t, a, b, c⟩
      exact ⟨t, a, b, (key δ t (h t a b).1 (h t a b).2 y).2 c⟩
  rw [hk δ ts _ hsh, hk δ' ts' _ hsh', hflat]

/-! ### The counterexample -/

theorem normalOf_dir {t : Vec ℝ 3 × Vec ℝ 3 × Vec ℝ 3} {r : ℝ} (hr : 0 < r) (d : Vec ℝ 3)
    (h : cross (vsub t.2.1 t.1) (vsub t.2.2 t.2.1) = fun i => r * d i) :
    twiceArea t = r * Spec.norm d ∧ normalOf t = fun i => d i / Spec.norm d := by
  have h1 : Spec.norm (fun i => r * d i) = r * Spec.norm d := norm_smul' hr.le d
  refine ⟨by rw [twiceArea_eq, h, h1], ?_⟩
  unfold normalOf
  rw [h, ← normalized_eq, h1]
  funext i
  rw [mul_div_mul_left _ _ hr.ne']

theorem shaped_of (hp : 16 ≤ F.prec) (hmin : ∀ k, F.emin = some k → k ≤ -4 * (F.prec : ℤ)) {t : Vec (Fl F) 3 × Vec (Fl F) 3 × Vec (Fl F) 3}
    (h1 : 1 ≤ twiceArea (trueTriangle t)) (h2 : sidesProduct (trueTriangle t) ≤ 28 * twiceArea (trueTriangle t)) : Shaped (600 * F.unit) t := by
  have hu := flat_unit hp
  have hu0 := F.unit_pos
  refine ⟨by linarith, fun k hk => ?_, ?_, ?_⟩
  · have := hmin k hk
    have e : (2 : ℝ)⁻¹ ^ F.prec * (1 / 2) = (2 : ℝ) ^ (-(F.prec : ℤ) - 1) := by
      rw [zpow_sub₀ (by norm_num), zpow_neg, zpow_natCast, inv_pow, zpow_one]; ring
    have h3 : (2 : ℝ) ^ ((k + 1) / 2) ≤ (2 : ℝ) ^ (-(F.prec : ℤ) - 1) := zpow_le_zpow_right₀ (by norm_num) (by omega)
    rw [← e] at h3
    refine h3.trans (mul_le_mul_of_nonneg_left (by linarith) (by positivity))
  · change 16 * (F.unit * _) ≤ _
    have := mul_le_mul_of_nonneg_left h2 hu0.le
    have := mul_le_mul_of_nonneg_right hu (show 0 ≤ twiceArea (trueTriangle t) by linarith)
    linarith
  · change 21 * F.unit * _ ≤ _
    have : sidesProduct (trueTriangle t) / twiceArea (trueTriangle t) ≤ 28 := by
      rw [div_le_iff₀ (by linarith)]; exact h2
    have := mul_le_mul_of_nonneg_left this hu0.le
    linarith

theorem norm_le3 {a b c r : ℝ} (hr : 0 ≤ r) (h : a ^ 2 + b ^ 2 + c ^ 2 ≤ r ^ 2) : Spec.norm ![a, b, c] ≤ r := by
  unfold Spec.norm
  rw [Fin.sum_univ_three]
  exact Real.sqrt_le_iff.2 ⟨hr, h⟩

/-- The corners of the example. -/
structure FlatExample (O P Q R K : Vec (Fl F) 3) : Prop where
  o : (fun i => (O i).1) = ![0, 0, 0]
  p : (fun i => (P i).1) = ![22, 1, 23]
  q : (fun i => (Q i).1) = ![32, flatE F, 32 + flatE F]
  r : (fun i => (R i).1) = ![1, -1, 0]
  k : (fun i => (K i).1) = ![0, 0, 1]

section
variable {O P Q R K : Vec (Fl F) 3} (h : FlatExample O P Q R K) (hp : 16 ≤ F.prec) (hmin : ∀ k, F.emin = some k → k ≤ -4 * (F.prec : ℤ))
include h hp hmin

/-- `1 / √3` and `1 / √2`. -/
theorem flat_roots : ∃ a b : ℝ, 0.577 < a ∧ a < 0.578 ∧ 0.707 < b ∧ b < 0.708 ∧
    Spec.norm ![-1, -1, 1] = 1 / a ∧ Spec.norm ![1, 1, 0] = 1 / b := by
  have h3 : Spec.norm ![-1, -1, 1] = Real.sqrt 3 := by
    unfold Spec.norm; rw [Fin.sum_univ_three]; congr 1
    show (-1 : ℝ) ^ 2 + (-1) ^ 2 + 1 ^ 2 = 3; norm_num
  have h2 : Spec.norm ![1, 1, 0] = Real.sqrt 2 := by
    unfold Spec.norm; rw [Fin.sum_univ_three]; congr 1
    show (1 : ℝ) ^ 2 + 1 ^ 2 + 0 ^ 2 = 2; norm_num
  have p3 : 0 < Real.sqrt 3 := by positivity
  have p2 : 0 < Real.sqrt 2 := by positivity
  have a1 : Real.sqrt 3 < 1.733 := (Real.sqrt_lt' (by norm_num)).2 (by norm_num)
  have a2 : 1.732 < Real.sqrt 3 := (Real.lt_sqrt (by norm_num)).2 (by norm_num)
  have b1 : Real.sqrt 2 < 1.4143 := (Real.sqrt_lt' (by norm_num)).2 (by norm_num)
  have b2 : 1.4142 < Real.sqrt 2 := (Real.lt_sqrt (by norm_num)).2 (by norm_num)
  refine ⟨1 / Real.sqrt 3, 1 / Real.sqrt 2, ?_, ?_, ?_, ?_, by rw [h3, one_div_one_div], by rw [h2, one_div_one_div]⟩
  · rw [lt_div_iff₀ p3]; linarith
  · rw [div_lt_iff₀ p3]; linarith
  · rw [lt_div_iff₀ p2]; linarith
  · rw [div_lt_iff₀ p2]; linarith

theorem flat_tri1 : cross (vsub (trueTriangle (P, O, Q)).2.1 (trueTriangle (P, O, Q)).1) (vsub (trueTriangle (P, O, Q)).2.2 (trueTriangle (P, O, Q)).2.1)
    = fun i => (32 - 22 * flatE F) * (![-1, -1, 1] : Vec ℝ 3) i := by
  show cross (vsub (fun i => (O i).1) (fun i => (P i).1)) (vsub (fun i => (Q i).1) (fun i => (O i).1)) = _
  rw [h.o, h.p, h.q]
  funext i
  fin_cases i <;> simp [cross, vsub] <;> ring

theorem flat_tri2 : cross (vsub (trueTriangle (Q, O, R)).2.1 (trueTriangle (Q, O, R)).1) (vsub (trueTriangle (Q, O, R)).2.2 (trueTriangle (Q, O, R)).2.1)
    = fun i => (32 + flatE F) * (![-1, -1, 1] : Vec ℝ 3) i := by
  show cross (vsub (fun i => (O i).1) (fun i => (Q i).1)) (vsub (fun i => (R i).1) (fun i => (O i).1)) = _
  rw [h.o, h.r, h.q]
  funext i
  fin_cases i <;> simp [cross, vsub]

theorem flat_tri3 : cross (vsub (trueTriangle (R, O, K)).2.1 (trueTriangle (R, O, K)).1) (vsub (trueTriangle (R, O, K)).2.2 (trueTriangle (R, O, K)).2.1)
    = fun i => 1 * (![1, 1, 0] : Vec ℝ 3) i := by
  show cross (vsub (fun i => (O i).1) (fun i => (R i).1)) (vsub (fun i => (K i).1) (fun i => (O i).1)) = _
  rw [h.o, h.r, h.k]
  funext i
  fin_cases i <;> simp [cross, vsub]

theorem flat_tri4 : cross (vsub (trueTriangle (P, O, R)).2.1 (trueTriangle (P, O, R)).1) (vsub (trueTriangle (P, O, R)).2.2 (trueTriangle (P, O, R)).2.1)
    = fun i => 23 * (![-1, -1, 1] : Vec ℝ 3) i := by
  show cross (vsub (fun i => (O i).1) (fun i => (P i).1)) (vsub (fun i => (R i).1) (fun i => (O i).1)) = _
  rw [h.o, h.r, h.p]
  funext i
  fin_cases i <;> simp [cross, vsub]
  norm_num

theorem flatE_small : 0 < flatE F ∧ flatE F ≤ 1 / 1024 := by
  have := flat_unit hp
  have := F.unit_pos
  unfold flatE
  constructor <;> linarith

theorem flat_shaped : Shaped (600 * F.unit) (P, O, Q) ∧ Shaped (600 * F.unit) (Q, O, R) ∧ Shaped (600 * F.unit) (R, O, K) ∧
    Shaped (600 * F.unit) (P, O, R) := by
  obtain ⟨a, b, a1, a2, b1, b2, n3, n2⟩ := flat_roots h hp hmin
  obtain ⟨e1, e2⟩ := flatE_small h hp hmin
  have na : 1.73 < 1 / a := by rw [lt_div_iff₀ (by linarith)]; linarith
  have nb : 1.41 < 1 / b := by rw [lt_div_iff₀ (by linarith)]; linarith
  have nP : Spec.norm ![-22, -1, -23] ≤ 32 := norm_le3 (by norm_num) (by norm_num)
  have nR : Spec.norm ![1, -1, 0] ≤ 1.5 := norm_le3 (by norm_num) (by norm_num)
  have nR' : Spec.norm ![-1, 1, 0] ≤ 1.5 := norm_le3 (by norm_num) (by norm_num)
  have nK : Spec.norm ![0, 0, 1] ≤ 1 := norm_le3 (by norm_num) (by norm_num)
  have nQ : Spec.norm ![32, flatE F, 32 + flatE F] ≤ 46 := norm_le3 (by norm_num) (by nlinarith)
  have nQ' : Spec.norm ![-32, -flatE F, -32 - flatE F] ≤ 46 := norm_le3 (by norm_num) (by nlinarith)
  have sp : ∀ {x y : Vec ℝ 3} {c d : ℝ}, Spec.norm x ≤ c → Spec.norm y ≤ d → Spec.norm x * Spec.norm y ≤ c * d := fun {x y c d} hx hy =>
    mul_le_mul hx hy (norm_nonneg' _) ((norm_nonneg' _).trans hx)
  refine ⟨?_, ?_, ?_, ?_⟩
  · obtain ⟨A, -⟩ := normalOf_dir (by linarith : 0 < 32 - 22 * flatE F) _ (flat_tri1 h hp hmin)
    rw [n3] at A
    have hA : 55 ≤ twiceArea (trueTriangle (P, O, Q)) := by rw [A]; nlinarith
    refine shaped_of hp hmin (by linarith) ?_
    have : sidesProduct (trueTriangle (P, O, Q)) = Spec.norm ![-22, -1, -23] * Spec.norm ![32, flatE F, 32 + flatE F] := by
      show Spec.norm ((fun i => (O i).1) - (fun i => (P i).1)) * Spec.norm ((fun i => (Q i).1) - (fun i => (O i).1)) = _
      rw [h.o, h.p, h.q]
      congr 2 <;> · funext i; fin_cases i <;> simp
    rw [this]
    have := sp nP nQ
    linarith
  · obtain ⟨A, -⟩ := normalOf_dir (by linarith : 0 < 32 + flatE F) _ (flat_tri2 h hp hmin)
    rw [n3] at A
    have hA : 55 ≤ twiceArea (trueTriangle (Q, O, R)) := by rw [A]; nlinarith
    refine shaped_of hp hmin (by linarith) ?_
    have : sidesProduct (trueTriangle (Q, O, R)) = Spec.norm ![-32, -flatE F, -32 - flatE F] * Spec.norm ![1, -1, 0] := by
      show Spec.norm ((fun i => (O i).1) - (fun i => (Q i).1)) * Spec.norm ((fun i => (R i).1) - (fun i => (O i).1)) = _
      rw [h.o, h.r, h.q]
      congr 2 <;> · funext i; fin_cases i <;> simp <;> ring
    rw [this]
    have := sp nQ' nR
    linarith
  · obtain ⟨A, -⟩ := normalOf_dir (by norm_num : (0 : ℝ) < 1) _ (flat_tri3 h hp hmin)
    rw [n2] at A
    have hA : 1.41 ≤ twiceArea (trueTriangle (R, O, K)) := by rw [A]; linarith
    refine shaped_of hp hmin (by linarith) ?_
    have : sidesProduct (trueTriangle (R, O, K)) = Spec.norm ![-1, 1, 0] * Spec.norm ![0, 0, 1] := by
      show Spec.norm ((fun i => (O i).1) - (fun i => (R i).1)) * Spec.norm ((fun i => (K i).1) - (fun i => (O i).1)) = _
      rw [h.o, h.r, h.k]
      congr 2 <;> · funext i; fin_cases i <;> simp
    rw [this]
    have := sp nR' nK
    linarith
  · obtain ⟨A, -⟩ := normalOf_dir (by norm_num : (0 : ℝ) < 23) _ (flat_tri4 h hp hmin)
    rw [n3] at A
    have hA : 39 ≤ twiceArea (trueTriangle (P, O, R)) := by rw [A]; linarith
    refine shaped_of hp hmin (by linarith) ?_
    have : sidesProduct (trueTriangle (P, O, R)) = Spec.norm ![-22, -1, -23] * Spec.norm ![1, -1, 0] := by
      show Spec.norm ((fun i => (O i).1) - (fun i => (P i).1)) * Spec.norm ((fun i => (R i).1) - (fun i => (O i).1)) = _
      rw [h.o, h.r, h.p]
      congr 2 <;> · funext i; fin_cases i <;> simp
    rw [this]
    have := sp nP nR
    linarith

/-- The computed cross products. -/
theorem flat_cross1 : (cross (vsub O P) (vsub Q O) 0).1 = -(32 - 22 * flatE F) ∧ (cross (vsub O P) (vsub Q O) 1).1 = -(32 - 16 * flatE F) := by
  have o0 : (O 0).1 = 0 := congrFun h.o 0
  have o1 : (O 1).1 = 0 := congrFun h.o 1
  have o2 : (O 2).1 = 0 := congrFun h.o 2
  have p0 : (P 0).1 = 22 := congrFun h.p 0
  have p1 : (P 1).1 = 1 := congrFun h.p 1
  have p2 : (P 2).1 = 23 := congrFun h.p 2
  have q0 : (Q 0).1 = 32 := congrFun h.q 0
  have q1 : (Q 1).1 = flatE F := congrFun h.q 1
  have q2 : (Q 2).1 = 32 + flatE F := congrFun h.q 2
  have ri : ∀ (x : ℝ) (m : ℤ), x = m → |m| < 2 ^ 16 → F.rnd x = x := fun x m hx hm => by
    rw [hx]; exact F.rounds.exact (flat_int hp hmin m hm)
  have rE : ∀ (x : ℝ) (m : ℤ), x = m * flatE F → |m| < 2 ^ 16 → F.rnd x = x := fun x m hx hm => by
    rw [hx]; exact F.rounds.exact (flat_mulE hp hmin m hm)
  have rN : ∀ (x : ℝ) (m : ℤ), x = 32 + m * flatE F → |m| ≤ 32 → F.rnd x = x := fun x m hx hm => by
    rw [hx]; exact F.rounds.exact (flat_near hp hmin m hm)
  have v1 : (vsub O P 1).1 = -1 := by
    show F.rnd ((O 1).1 - (P 1).1) = _; rw [o1, p1, ri _ (-1) (by norm_num) (by norm_num)]; norm_num
  have v0 : (vsub O P 0).1 = -22 := by
    show F.rnd ((O 0).1 - (P 0).1) = _; rw [o0, p0, ri _ (-22) (by norm_num) (by norm_num)]; norm_num
  have v2 : (vsub O P 2).1 = -23 := by
    show F.rnd ((O 2).1 - (P 2).1) = _; rw [o2, p2, ri _ (-23) (by norm_num) (by norm_num)]; norm_num
  have w0 : (vsub Q O 0).1 = 32 := by
    show F.rnd ((Q 0).1 - (O 0).1) = _; rw [o0, q0, ri _ 32 (by norm_num) (by norm_num)]; norm_num
  have w1 : (vsub Q O 1).1 = flatE F := by
    show F.rnd ((Q 1).1 - (O 1).1) = _; rw [o1, q1, rE _ 1 (by push_cast; ring) (by norm_num)]; ring
  have w2 : (vsub Q O 2).1 = 32 + flatE F := by
    show F.rnd ((Q 2).1 - (O 2).1) = _; rw [o2, q2, rN _ 1 (by push_cast; ring) (by norm_num)]; ring
  constructor
  · show F.rnd (F.rnd ((vsub O P 1).1 * (vsub Q O 2).1) - F.rnd ((vsub O P 2).1 * (vsub Q O 1).1)) = _
    rw [v1, v2, w1, w2]
    have t1 : F.rnd (-1 * (32 + flatE F)) = -(32 + flatE F) := by
      rw [neg_one_mul, F.rounds.odd, rN _ 1 (by push_cast; ring) (by norm_num)]
    rw [t1, rE (-23 * flatE F) (-23) (by push_cast; ring) (by norm_num)]
    rw [show -(32 + flatE F) - -23 * flatE F = -(32 - 22 * flatE F) by ring, F.rounds.odd, rN _ (-22) (by push_cast; ring) (by norm_num)]
  · show F.rnd (F.rnd ((vsub O P 2).1 * (vsub Q O 0).1) - F.rnd ((vsub O P 0).1 * (vsub Q O 2).1)) = _
    rw [v2, v0, w0, w2]
    have t1 : F.rnd (-22 * (32 + flatE F)) = -(704 + 16 * flatE F) := by
      rw [show -22 * (32 + flatE F) = -(704 + 22 * flatE F) by ring, F.rounds.odd, flat_round hp hmin]
    rw [t1, ri (-23 * 32) (-736) (by norm_num) (by norm_num)]
    rw [show -23 * 32 - -(704 + 16 * flatE F) = -(32 - 16 * flatE F) by ring, F.rounds.odd, rN _ (-16) (by push_cast; ring) (by norm_num)]

theorem flat_cross2 : cross (vsub O Q) (vsub R O) 0 = cross (vsub O Q) (vsub R O) 1 := by
  have o0 : (O 0).1 = 0 := congrFun h.o 0
  have o1 : (O 1).1 = 0 := congrFun h.o 1
  have o2 : (O 2).1 = 0 := congrFun h.o 2
  have q2 : (Q 2).1 = 32 + flatE F := congrFun h.q 2
  have r0 : (R 0).1 = 1 := congrFun h.r 0
  have r1 : (R 1).1 = -1 := congrFun h.r 1
  have r2 : (R 2).1 = 0 := congrFun h.r 2
  have one := F.rounds.exact F.one_mem
  have w0 : (vsub R O 0).1 = 1 := by
    show F.rnd ((R 0).1 - (O 0).1) = _; rw [o0, r0, sub_zero, one]
  have w1 : (vsub R O 1).1 = -1 := by
    show F.rnd ((R 1).1 - (O 1).1) = _; rw [o1, r1, sub_zero, F.rounds.odd, one]
  have w2 : (vsub R O 2).1 = 0 := by
    show F.rnd ((R 2).1 - (O 2).1) = _; rw [o2, r2, sub_zero, F.rounds.zero]
  apply Fl.ext
  show F.rnd (F.rnd ((vsub O Q 1).1 * (vsub R O 2).1) - F.rnd ((vsub O Q 2).1 * (vsub R O 1).1))
    = F.rnd (F.rnd ((vsub O Q 2).1 * (vsub R O 0).1) - F.rnd ((vsub O Q 0).1 * (vsub R O 2).1))
  rw [w0, w1, w2]
  simp only [mul_zero, mul_one, mul_neg, F.rounds.odd, F.rounds.zero, zero_sub, sub_zero, neg_neg]

/-- The two triangles of the flat quadrilateral get different normals. -/
theorem flat_differ : normalize (normalOf (P, O, Q)) ≠ normalize (normalOf (Q, O, R)) := by
  obtain ⟨a, b, a1, a2, b1, b2, n3, n2⟩ := flat_roots h hp hmin
  obtain ⟨e1, e2⟩ := flatE_small h hp hmin
  have hu := flat_unit hp
  have hu0 := F.unit_pos
  have hp9 : 9 ≤ F.prec := by omega
  have hs := (flat_shaped h hp hmin).1
  obtain ⟨A, N⟩ := normalOf_dir (by linarith : 0 < 32 - 22 * flatE F) _ (flat_tri1 h hp hmin)
  obtain ⟨-, d1, -⟩ := normalOf_err (P, O, Q) hp9 hs.pos (fun k hk => ⟨by have := hmin k hk; omega, hs.small k hk⟩) hs.angle
  obtain ⟨-, d2⟩ := used_normal_err hp9 hmin hs
  have hacc := hs.accurate
  rw [N, n3] at d1 d2
  have c1 := coord_le_norm (fun i => Fl.vals (normalOf (P, O, Q)) i - ![-1, -1, 1] i / (1 / a)) 0
  change |(normalOf (P, O, Q) 0).1 - -1 / (1 / a)| ≤ Spec.dist (Fl.vals (normalOf (P, O, Q))) (fun i => ![-1, -1, 1] i / (1 / a)) at c1
  have c2 := coord_le_norm (fun i => Fl.vals (normalize (normalOf (P, O, Q))) i - ![-1, -1, 1] i / (1 / a)) 0
  change |(normalize (normalOf (P, O, Q)) 0).1 - -1 / (1 / a)| ≤ Spec.dist (Fl.vals (normalize (normalOf (P, O, Q)))) (fun i => ![-1, -1, 1] i / (1 / a)) at c2
  rw [div_div_eq_mul_div, div_one, neg_one_mul] at c1 c2
  obtain ⟨x0, x1⟩ := flat_cross1 h hp hmin
  intro heq
  have hy : normalize (normalOf (Q, O, R)) 0 = normalize (normalOf (Q, O, R)) 1 := by
    show (cross (vsub O Q) (vsub R O) 0 / _) / _ = (cross (vsub O Q) (vsub R O) 1 / _) / _
    rw [flat_cross2 h hp hmin]
  rw [← heq] at hy
  replace hy := congrArg Subtype.val hy
  set w := cross (vsub O P) (vsub Q O) with hw
  change F.rnd (F.rnd ((w 0).1 / (length w).1) / (length (normalize w)).1) = F.rnd (F.rnd ((w 1).1 / (length w).1) / (length (normalize w)).1) at hy
  change |F.rnd ((w 0).1 / (length w).1) - -a| ≤ _ at c1
  change |F.rnd (F.rnd ((w 0).1 / (length w).1) / (length (normalize w)).1) - -a| ≤ _ at c2
  rw [x0] at hy c1 c2
  rw [x1] at hy
  have hL0 : 0 ≤ (length w).1 := F.rounds.nonneg (Real.sqrt_nonneg _)
  have hL0' : 0 ≤ (length (normalize w)).1 := F.rounds.nonneg (Real.sqrt_nonneg _)
  generalize (length w).1 = L at *
  generalize (length (normalize w)).1 = L' at *
  simp only [neg_div, F.rounds.odd, neg_inj] at hy c1 c2
  have k1 := (abs_le.1 c1).2
  have k2 := (abs_le.1 c2).2
  change 21 * F.unit * _ ≤ _ at hacc
  change _ ≤ 21 * F.unit * _ at d1
  have g1 : 1 / 4 ≤ F.rnd ((32 - 22 * flatE F) / L) := by linarith
  have g2 : 1 / 4 ≤ F.rnd (F.rnd ((32 - 22 * flatE F) / L) / L') := by linarith
  have hL : 0 < L := by
    refine hL0.lt_of_ne fun h0 => ?_
    rw [← h0, div_zero, F.rounds.zero] at g1
    norm_num at g1
  have hL' : 0 < L' := by
    refine hL0'.lt_of_ne fun h0 => ?_
    rw [← h0, div_zero, F.rounds.zero] at g2
    norm_num at g2
  have s1 := quot_gap hp hmin (c := 5) (b := 32 - 16 * flatE F) (by linarith) hL (by norm_num) le_rfl (by
    have : F.unit * (32 - 22 * flatE F) ≤ F.unit * 32 := mul_le_mul_of_nonneg_left (by linarith) hu0.le
    have e : flatE F = 64 * F.unit := rfl
    linarith) g1
  have s2 := quot_gap hp hmin (c := 2) (by linarith) hL' (by norm_num) (by norm_num) (by linarith) g2
  rw [hy] at s2 g2
  have := mul_pos hu0 (show 0 < F.rnd (F.rnd ((32 - 16 * flatE F) / L) / L') by linarith)
  linarith

/-- The exact normals and the first coordinates of the computed ones. -/
theorem flat_normals {a b : ℝ} (a1 : 0.577 < a) (b1 : 0.707 < b) (n3 : Spec.norm ![-1, -1, 1] = 1 / a) (n2 : Spec.norm ![1, 1, 0] = 1 / b) :
    (∀ t ∈ [(P, O, Q), (Q, O, R), (P, O, R)], normalOf (trueTriangle t) = ![-a, -a, a] ∧ (normalize (normalOf t) 0).1 < 0) ∧
    normalOf (trueTriangle (R, O, K)) = ![b, b, 0] ∧ 0 < (normalize (normalOf (R, O, K)) 0).1 := by
  obtain ⟨e1, e2⟩ := flatE_small h hp hmin
  have hu := flat_unit hp
  have hu0 := F.unit_pos
  obtain ⟨s1, s2, s3, s4⟩ := flat_shaped h hp hmin
  have hcoord : ∀ (t : Vec (Fl F) 3 × Vec (Fl F) 3 × Vec (Fl F) 3) (n : Vec ℝ 3), Shaped (600 * F.unit) t → normalOf (trueTriangle t) = n →
      |(normalize (normalOf t) 0).1 - n 0| ≤ 1 / 10 := by
    intro t n hs hn
    obtain ⟨-, d⟩ := used_normal_err (by omega) hmin hs
    have c := coord_le_norm (fun i => Fl.vals (normalize (normalOf t)) i - n i) 0
    change |(normalize (normalOf t) 0).1 - n 0| ≤ Spec.dist (Fl.vals (normalize (normalOf t))) n at c
    rw [hn] at d
    linarith
  have hneg : ∀ (t : Vec (Fl F) 3 × Vec (Fl F) 3 × Vec (Fl F) 3) (r : ℝ), 0 < r → Shaped (600 * F.unit) t →
      cross (vsub (trueTriangle t).2.1 (trueTriangle t).1) (vsub (trueTriangle t).2.2 (trueTriangle t).2.1) = (fun i => r * (![-1, -1, 1] : Vec ℝ 3) i) →
      normalOf (trueTriangle t) = ![-a, -a, a] ∧ (normalize (normalOf t) 0).1 < 0 := by
    intro t r hr hs hc
    obtain ⟨-, N⟩ := normalOf_dir hr _ hc
    have N' : normalOf (trueTriangle t) = ![-a, -a, a] := by
      rw [N, n3]; funext i; fin_cases i <;> simp
    refine ⟨N', ?_⟩
    have c := (abs_le.1 (hcoord t _ hs N')).2
    change _ - -a ≤ _ at c
    linarith
  refine ⟨?_, ?_⟩
  · intro t ht
    simp only [List.mem_cons, List.not_mem_nil, or_false] at ht
    rcases ht with rfl | rfl | rfl
    · exact hneg _ _ (by linarith) s1 (flat_tri1 h hp hmin)
    · exact hneg _ _ (by linarith) s2 (flat_tri2 h hp hmin)
    · exact hneg _ _ (by norm_num) s4 (flat_tri4 h hp hmin)
  · obtain ⟨-, N⟩ := normalOf_dir (by norm_num : (0 : ℝ) < 1) _ (flat_tri3 h hp hmin)
    have N' : normalOf (trueTriangle (R, O, K)) = ![b, b, 0] := by
      rw [N, n2]; funext i; fin_cases i <;> simp
    refine ⟨N', ?_⟩
    have c := (abs_le.1 (hcoord _ _ s3 N')).1
    change _ ≤ _ - b at c
    linarith

theorem flat_apart (ts : List (Vec (Fl F) 3 × Vec (Fl F) 3 × Vec (Fl F) 3)) (hts : ∀ x ∈ corners ts, x ∈ [O, P, Q, R, K]) : Apart (corners ts) := by
  obtain ⟨e1, e2⟩ := flatE_small h hp hmin
  have o0 : (O 0).1 = 0 := congrFun h.o 0
  have o2 : (O 2).1 = 0 := congrFun h.o 2
  have p0 : (P 0).1 = 22 := congrFun h.p 0
  have p2 : (P 2).1 = 23 := congrFun h.p 2
  have q0 : (Q 0).1 = 32 := congrFun h.q 0
  have q2 : (Q 2).1 = 32 + flatE F := congrFun h.q 2
  have r0 : (R 0).1 = 1 := congrFun h.r 0
  have r2 : (R 2).1 = 0 := congrFun h.r 2
  have k0 : (K 0).1 = 0 := congrFun h.k 0
  have k2 : (K 2).1 = 1 := congrFun h.k 2
  have hone : ∀ {x y : ℝ}, 1 ≤ |x - y| → Resolved F.emin x y := by
    intro x y hxy
    refine ⟨fun he => ?_, fun k hk => le_trans ?_ hxy⟩
    · rw [he, sub_self, abs_zero] at hxy; norm_num at hxy
    · have := hmin k hk
      calc (2 : ℝ) ^ ((k + 1) / 2) ≤ 2 ^ (0 : ℤ) := zpow_le_zpow_right₀ (by norm_num) (by omega)
        _ = 1 := zpow_zero _
  refine apart_fl fun u hu v hv hne => ?_
  have hu' := hts u hu
  have hv' := hts v hv
  simp only [List.mem_cons, List.not_mem_nil, or_false] at hu' hv'
  rcases hu' with rfl | rfl | rfl | rfl | rfl <;> rcases hv' with rfl | rfl | rfl | rfl | rfl
  all_goals first
    | exact absurd rfl hne
    | (refine ⟨0, hone ?_⟩; simp only [o0, p0, q0, r0, k0]; norm_num; done)
    | (refine ⟨2, hone ?_⟩; simp only [o2, k2]; norm_num; done)
end

theorem perm_of_covers {α β : Type} (f : α → β) {us L : List α} (hus : us.Nodup) (hL : L.Nodup) (hsub : ∀ x ∈ us, x ∈ L)
    (hcov : ∀ x ∈ L, ∃ y ∈ us, f y = f x) (hinj : ∀ x ∈ L, ∀ y ∈ L, f x = f y → x = y) : us.Perm L := by
  rw [List.perm_ext_iff_of_nodup hus hL]
  refine fun x => ⟨hsub x, fun hx => ?_⟩
  obtain ⟨y, hy, he⟩ := hcov x hx
  rwa [← hinj y (hsub y hy) x hx he]

set_option maxHeartbeats 1000000 in
/-- **C112** In general it is not so: in every format with at least 16 bits of precision (and exponents as in IEEE 754) there are a flat, convex
quadrilateral `O R Q P` and one more triangle at its corner `O` such that dividing the quadrilateral along one diagonal or along the other changes the
vertex normal at `O` by more than 1/3, although the facets have the same normals.  Divided along `O Q`, the two halves have computed normals that
differ by rounding, and the face is counted twice. -/
theorem C112_counterexample (hp : 16 ≤ F.prec) (hmin : ∀ k, F.emin = some k → k ≤ -4 * (F.prec : ℤ)) (dbg : Bool) (M w : Nat) (hM : 9 < M) :
    ∃ O P Q R K : Vec (Fl F) 3,
      (∃ s t : ℝ, 0 < s ∧ s < 1 ∧ 0 < t ∧ t < 1 ∧ ∀ i, (O i).1 + s * ((Q i).1 - (O i).1) = (R i).1 + t * ((P i).1 - (R i).1)) ∧
      (∀ n, (∃ t ∈ [(P, O, Q), (Q, O, R), (R, O, K)], O ∈ [t.1, t.2.1, t.2.2] ∧ IsNormal (trueTriangle t) n) ↔
        ∃ t ∈ [(P, O, R), (P, R, Q), (R, O, K)], O ∈ [t.1, t.2.1, t.2.2] ∧ IsNormal (trueTriangle t) n) ∧
      ∃ m m', ∃ i i' : Nat, ∃ ns ns', ∃ v v' : Vec (Fl F) 3, buildMesh dbg M w [(P, O, Q), (Q, O, R), (R, O, K)] = .ok m ∧ buildMesh dbg M w [(P, O, R), (P, R, Q), (R, O, K)] = .ok m' ∧
        m.points[i]? = some O ∧ m'.points[i']? = some O ∧ calcVertexNormals m = .ok ns ∧ calcVertexNormals m' = .ok ns' ∧
        ns[i]? = some v ∧ ns'[i']? = some v' ∧ 1 / 3 < Spec.dist (fun j => (v j).1) (fun j => (v' j).1) := by
  have i0 : Representable F.prec F.emin (0 : ℝ) := by simpa using flat_int hp hmin 0 (by norm_num)
  have i1 : Representable F.prec F.emin (1 : ℝ) := F.one_mem
  have i22 : Representable F.prec F.emin (22 : ℝ) := by simpa using flat_int hp hmin 22 (by norm_num)
  have i23 : Representable F.prec F.emin (23 : ℝ) := by simpa using flat_int hp hmin 23 (by norm_num)
  have i32 : Representable F.prec F.emin (32 : ℝ) := by simpa using flat_int hp hmin 32 (by norm_num)
  have iE : Representable F.prec F.emin (flatE F) := by simpa using flat_mulE hp hmin 1 (by norm_num)
  have iE32 : Representable F.prec F.emin (32 + flatE F) := by simpa using flat_near hp hmin 1 (by norm_num)
  obtain ⟨O, hO⟩ : ∃ O, O = pt i0 i0 i0 := ⟨_, rfl⟩
  obtain ⟨P, hP⟩ : ∃ P, P = pt i22 i1 i23 := ⟨_, rfl⟩
  obtain ⟨Q, hQ⟩ : ∃ Q, Q = pt i32 iE iE32 := ⟨_, rfl⟩
  obtain ⟨R, hR⟩ : ∃ R, R = pt i1 i1.neg i0 := ⟨_, rfl⟩
  obtain ⟨K, hK⟩ : ∃ K, K = pt i0 i0 i1 := ⟨_, rfl⟩
  have h : FlatExample O P Q R K := ⟨by rw [hO, pt_vals], by rw [hP, pt_vals], by rw [hQ, pt_vals], by rw [hR, pt_vals], by rw [hK, pt_vals]⟩
  clear hO hP hQ hR hK
  obtain ⟨a, b, a1, a2, b1, b2, n3, n2⟩ := flat_roots h hp hmin
  obtain ⟨e1, e2⟩ := flatE_small h hp hmin
  obtain ⟨s1, s2, s3, s4⟩ := flat_shaped h hp hmin
  obtain ⟨N, N3, c3⟩ := flat_normals h hp hmin a1 b1 n3 n2
  obtain ⟨N1, c1⟩ := N (P, O, Q) (by simp)
  obtain ⟨N2, c2⟩ := N (Q, O, R) (by simp)
  obtain ⟨N4, c4⟩ := N (P, O, R) (by simp)
  have hdiff := flat_differ h hp hmin
  have hu := flat_unit hp
  have hu0 := F.unit_pos
  have hp9 : 9 ≤ F.prec := by omega
  have o0 : (O 0).1 = 0 := congrFun h.o 0
  have o1 : (O 1).1 = 0 := congrFun h.o 1
  have o2 : (O 2).1 = 0 := congrFun h.o 2
  have p0 : (P 0).1 = 22 := congrFun h.p 0
  have p1 : (P 1).1 = 1 := congrFun h.p 1
  have p2 : (P 2).1 = 23 := congrFun h.p 2
  have q0 : (Q 0).1 = 32 := congrFun h.q 0
  have q1 : (Q 1).1 = flatE F := congrFun h.q 1
  have q2 : (Q 2).1 = 32 + flatE F := congrFun h.q 2
  have r0 : (R 0).1 = 1 := congrFun h.r 0
  have r1 : (R 1).1 = -1 := congrFun h.r 1
  have r2 : (R 2).1 = 0 := congrFun h.r 2
  have hOP : O ≠ P := fun he => by rw [he, p0] at o0; norm_num at o0
  have hOQ : O ≠ Q := fun he => by rw [he, q0] at o0; norm_num at o0
  have hOR : O ≠ R := fun he => by rw [he, r0] at o0; norm_num at o0
  have hnorm : ∀ t : Vec (Fl F) 3 × Vec (Fl F) 3 × Vec (Fl F) 3, Shaped (600 * F.unit) t → ∀ n, IsNormal (trueTriangle t) n ↔ n = normalOf (trueTriangle t) := by
    intro t ht n
    refine isNormal_iff ((nonDegenerate_iff _).2 fun h0 => ?_) n
    have := ht.pos
    rw [twiceArea_eq, h0] at this
    simp [Spec.norm] at this
  refine ⟨O, P, Q, R, K, ?_, ?_, ?_⟩
  · -- the diagonals cross
    have hd : 0 < 64 - 21 * flatE F := by linarith
    refine ⟨(1 + 21 * ((32 + flatE F) / (64 - 21 * flatE F))) / 32, (32 + flatE F) / (64 - 21 * flatE F), by positivity, ?_, by positivity, ?_, ?_⟩
    · have : (32 + flatE F) / (64 - 21 * flatE F) < 1 := by rw [div_lt_one hd]; linarith
      linarith
    · rw [div_lt_one hd]; linarith
    · intro i
      fin_cases i
      · show (O 0).1 + _ * ((Q 0).1 - (O 0).1) = (R 0).1 + _ * ((P 0).1 - (R 0).1)
        rw [o0, q0, r0, p0]; ring
      · show (O 1).1 + _ * ((Q 1).1 - (O 1).1) = (R 1).1 + _ * ((P 1).1 - (R 1).1)
        rw [o1, q1, r1, p1]; field_simp; ring
      · show (O 2).1 + _ * ((Q 2).1 - (O 2).1) = (R 2).1 + _ * ((P 2).1 - (R 2).1)
        rw [o2, q2, r2, p2]; field_simp; ring
  · intro n
    have m1 : ∀ {x : Vec (Fl F) 3} {y : Vec (Fl F) 3}, O ∈ [x, O, y] := by intro x y; simp
    constructor
    · rintro ⟨t, ht, -, hn⟩
      simp only [List.mem_cons, List.not_mem_nil, or_false] at ht
      rcases ht with rfl | rfl | rfl
      · exact ⟨(P, O, R), by simp, m1, (hnorm _ s4 n).2 (by rw [(hnorm _ s1 n).1 hn, N1, N4])⟩
      · exact ⟨(P, O, R), by simp, m1, (hnorm _ s4 n).2 (by rw [(hnorm _ s2 n).1 hn, N2, N4])⟩
      · exact ⟨(R, O, K), by simp, m1, hn⟩
    · rintro ⟨t, ht, hO, hn⟩
      simp only [List.mem_cons, List.not_mem_nil, or_false] at ht
      rcases ht with rfl | rfl | rfl
      · exact ⟨(P, O, Q), by simp, m1, (hnorm _ s1 n).2 (by rw [(hnorm _ s4 n).1 hn, N1, N4])⟩
      · simp [hOP, hOQ, hOR] at hO
      · exact ⟨(R, O, K), by simp, m1, hn⟩
  · -- the meshes
    obtain ⟨m, hm, hb⟩ := C48_build_succeeds dbg M w [(P, O, Q), (Q, O, R), (R, O, K)] (by simpa using hM)
      (flat_apart h hp hmin _ (by intro x hx; simp [corners] at hx ⊢; tauto))
    obtain ⟨m', hm', hb'⟩ := C48_build_succeeds dbg M w [(P, O, R), (P, R, Q), (R, O, K)] (by simpa using hM)
      (flat_apart h hp hmin _ (by intro x hx; simp [corners] at hx ⊢; tauto))
    have hmem : O ∈ m.points := by
      rw [(C43_vertices dbg M _ (by simpa using hM) m hb).1]
      simp [corners, List.mem_eraseDups]
    have hmem' : O ∈ m'.points := by
      rw [(C43_vertices dbg M _ (by simpa using hM) m' hb').1]
      simp [corners, List.mem_eraseDups]
    obtain ⟨i, hi, hiO⟩ := List.mem_iff_getElem.1 hmem
    obtain ⟨i', hi', hiO'⟩ := List.mem_iff_getElem.1 hmem'
    have hδ : 600 * F.unit ≤ 1 / 16 := by linarith
    obtain ⟨ns, v, us, h1, h2, h3, -, h4, h5, h6⟩ := vertex_err dbg M _ (by simpa using hM) m hb hp9 hmin (by positivity) hδ i hi (by
      intro t ht _
      simp only [List.mem_cons, List.not_mem_nil, or_false] at ht
      rcases ht with rfl | rfl | rfl
      · exact s1
      · exact s2
      · exact s3)
    obtain ⟨ns', v', us', h1', h2', h3', -, h4', h5', h6'⟩ := vertex_err dbg M _ (by simpa using hM) m' hb' hp9 hmin (by positivity) hδ i' hi' (by
      intro t ht hO
      rw [hiO'] at hO
      simp only [List.mem_cons, List.not_mem_nil, or_false] at ht
      rcases ht with rfl | rfl | rfl
      · exact s4
      · simp [hOP, hOQ, hOR] at hO
      · exact s3)
    rw [hiO] at h4 h5
    rw [hiO'] at h4' h5'
    have d13 : normalize (normalOf (P, O, Q)) ≠ normalize (normalOf (R, O, K)) := fun he => by rw [he] at c1; linarith
    have d23 : normalize (normalOf (Q, O, R)) ≠ normalize (normalOf (R, O, K)) := fun he => by rw [he] at c2; linarith
    have d43 : normalize (normalOf (P, O, R)) ≠ normalize (normalOf (R, O, K)) := fun he => by rw [he] at c4; linarith
    have t12 : (P, O, Q) ≠ (Q, O, R) := fun he => hdiff (by rw [he])
    have t13 : (P, O, Q) ≠ (R, O, K) := fun he => d13 (by rw [he])
    have t23 : (Q, O, R) ≠ (R, O, K) := fun he => d23 (by rw [he])
    have t43 : (P, O, R) ≠ (R, O, K) := fun he => d43 (by rw [he])
    have hperm : us.Perm [(P, O, Q), (Q, O, R), (R, O, K)] := by
      refine perm_of_covers (fun t => normalize (normalOf t)) h3 (List.nodup_cons.2 ⟨?_, List.nodup_cons.2 ⟨?_, List.nodup_singleton _⟩⟩)
        (fun t ht => (h4 t ht).1) ?_ ?_
      · intro hm; rcases List.mem_cons.1 hm with e | e
        · exact t12 e
        · exact t13 (List.mem_singleton.1 e)
      · exact fun e => t23 (List.mem_singleton.1 e)
      · intro t ht
        refine h5 t ht ?_
        simp only [List.mem_cons, List.not_mem_nil, or_false] at ht
        rcases ht with rfl | rfl | rfl <;> simp
      · intro x hx y hy hxy
        simp only [List.mem_cons, List.not_mem_nil, or_false] at hx hy
        rcases hx with rfl | rfl | rfl <;> rcases hy with rfl | rfl | rfl
        · rfl
        · exact absurd hxy hdiff
        · exact absurd hxy d13
        · exact absurd hxy.symm hdiff
        · rfl
        · exact absurd hxy d23
        · exact absurd hxy.symm d13
        · exact absurd hxy.symm d23
        · rfl
    have hperm' : us'.Perm [(P, O, R), (R, O, K)] := by
      refine perm_of_covers (fun t => normalize (normalOf t)) h3' (List.nodup_cons.2 ⟨?_, List.nodup_singleton _⟩) ?_ ?_ ?_
      · exact fun e => t43 (List.mem_singleton.1 e)
      · intro t ht
        obtain ⟨ht, hO⟩ := h4' t ht
        simp only [List.mem_cons, List.not_mem_nil, or_false] at ht
        rcases ht with rfl | rfl | rfl
        · simp
        · simp [hOP, hOQ, hOR] at hO
        · simp
      · intro t ht
        simp only [List.mem_cons, List.not_mem_nil, or_false] at ht
        rcases ht with rfl | rfl
        · exact h5' _ (by simp) (by simp)
        · exact h5' _ (by simp) (by simp)
      · intro x hx y hy hxy
        simp only [List.mem_cons, List.not_mem_nil, or_false] at hx hy
        rcases hx with rfl | rfl <;> rcases hy with rfl | rfl
        · rfl
        · exact absurd hxy d43
        · exact absurd hxy.symm d43
        · rfl
    have hsum : (fun j => (us.map fun t => normalOf (trueTriangle t) j).sum) = ![b - 2 * a, b - 2 * a, 2 * a] := by
      funext j
      rw [(hperm.map _).sum_eq]
      simp only [List.map_cons, List.map_nil, List.sum_cons, List.sum_nil, N1, N2, N3]
      fin_cases j
      · show -a + (-a + (b + 0)) = b - 2 * a; ring
      · show -a + (-a + (b + 0)) = b - 2 * a; ring
      · show a + (a + (0 + 0)) = 2 * a; ring
    have hsum' : (fun j => (us'.map fun t => normalOf (trueTriangle t) j).sum) = ![b - a, b - a, a] := by
      funext j
      rw [(hperm'.map _).sum_eq]
      simp only [List.map_cons, List.map_nil, List.sum_cons, List.sum_nil, N4, N3]
      fin_cases j
      · show -a + (b + 0) = b - a; ring
      · show -a + (b + 0) = b - a; ring
      · show a + (0 + 0) = a; ring
    have hlen : us.length = 3 := hperm.length_eq
    have hlen' : us'.length = 2 := hperm'.length_eq
    have up : Spec.norm ![b - 2 * a, b - 2 * a, 2 * a] ≤ 1.34 := norm_le3 (by norm_num) (by nlinarith)
    have up' : Spec.norm ![b - a, b - a, a] ≤ 0.61 := norm_le3 (by norm_num) (by nlinarith)
    have lo : 1.15 ≤ Spec.norm ![b - 2 * a, b - 2 * a, 2 * a] := by
      have := coord_le_norm ![b - 2 * a, b - 2 * a, 2 * a] 2
      change |2 * a| ≤ _ at this
      rw [abs_of_pos (by linarith)] at this
      linarith
    have lo' : 0.57 ≤ Spec.norm ![b - a, b - a, a] := by
      have := coord_le_norm ![b - a, b - a, a] 2
      change |a| ≤ _ at this
      rw [abs_of_pos (by linarith)] at this
      linarith
    rw [hsum, hlen] at h6
    rw [hsum', hlen'] at h6'
    simp only [congrFun hsum, congrFun hsum'] at h6 h6'
    push_cast at h6 h6'
    generalize Spec.norm ![b - 2 * a, b - 2 * a, 2 * a] = S at *
    generalize Spec.norm ![b - a, b - a, a] = S' at *
    have g := h6 S rfl (by linarith) (by change 3 * F.unit ≤ 1; linarith)
      (by change 2 * (3 * (600 * F.unit + 16 * F.unit) + 5 / 4 * (F.unit * 3 ^ 2)) ≤ S; linarith)
    have g' := h6' S' rfl (by linarith) (by change 2 * F.unit ≤ 1; linarith)
      (by change 2 * (2 * (600 * F.unit + 16 * F.unit) + 5 / 4 * (F.unit * 2 ^ 2)) ≤ S'; linarith)
    change _ ≤ (2 * 3 * (600 * F.unit) + (40 * 3 + 3 * 3 ^ 2) * F.unit) / S at g
    change _ ≤ (2 * 2 * (600 * F.unit) + (40 * 2 + 3 * 2 ^ 2) * F.unit) / S' at g'
    have k := coord_le_norm (fun j => (v j).1 - ![b - 2 * a, b - 2 * a, 2 * a] j / S) 0
    change |(v 0).1 - (b - 2 * a) / S| ≤ Spec.dist (fun j => (v j).1) (fun j => ![b - 2 * a, b - 2 * a, 2 * a] j / S) at k
    have k' := coord_le_norm (fun j => (v' j).1 - ![b - a, b - a, a] j / S') 0
    change |(v' 0).1 - (b - a) / S'| ≤ Spec.dist (fun j => (v' j).1) (fun j => ![b - a, b - a, a] j / S') at k'
    have z := (abs_le.1 (k.trans g)).2
    have z' := (abs_le.1 (k'.trans g')).1
    have y1 : (2 * 3 * (600 * F.unit) + (40 * 3 + 3 * 3 ^ 2) * F.unit) / S ≤ 0.05 := by
      rw [div_le_iff₀ (by linarith)]; linarith
    have y2 : (2 * 2 * (600 * F.unit) + (40 * 2 + 3 * 2 ^ 2) * F.unit) / S' ≤ 0.07 := by
      rw [div_le_iff₀ (by linarith)]; linarith
    have y3 : (b - 2 * a) / S ≤ -0.33 := by
      rw [div_le_iff₀ (by linarith)]; linarith
    have y4 : 0.2 ≤ (b - a) / S' := by
      rw [le_div_iff₀ (by linarith)]; linarith
    refine ⟨m, m', i, i', ns, ns', v, v', hm, hm', ?_, ?_, h1, h1', h2, h2', ?_⟩
    · rw [List.getElem?_eq_getElem hi, hiO]
    · rw [List.getElem?_eq_getElem hi', hiO']
    · have k := coord_le_norm (fun j => (v j).1 - (v' j).1) 0
      change |(v 0).1 - (v' 0).1| ≤ Spec.dist (fun j => (v j).1) (fun j => (v' j).1) at k
      have := (abs_le.1 k).1
      linarith

section Examples
open Classical

theorem corner64_axis : ∀ t ∈ corner64, AxisParallel t := by
  intro t ht
  simp only [corner64, List.mem_cons, List.not_mem_nil, or_false] at ht
  rcases ht with rfl | rfl | rfl
  · exact ⟨0, rfl, rfl⟩
  · exact ⟨2, rfl, rfl⟩
  · exact ⟨1, rfl, rfl⟩

/-- The facet (20, 0, 0), (0, 0, 0), (0, 15, 0) of the tetrahedron has exactly the normal (0, 0, -1). -/
example : ∃ m f n, buildMesh true (2 ^ 64) 64 tetra64 = .ok m ∧ vecGet m.facets 2 = .ok f ∧ calcFacetNormal m f = .ok n ∧
    (fun i => (n i).1) = ![0, 0, -1] := by
  obtain ⟨m, hm, hb⟩ := C48_build_succeeds true (2 ^ 64) 64 tetra64 (by simp [tetra64]) tetra64_apart
  have hmem : (p64 20 0 0, p64 0 0 0, p64 0 15 0) ∈ corner64 := by simp [corner64]
  have hs := corner64_shaped _ hmem
  obtain ⟨f, n, h1, h2, h3⟩ := C112_facet true (2 ^ 64) tetra64 (by simp [tetra64]) m hb (by show 9 ≤ 53; norm_num) 2 (by simp [tetra64])
    (corner64_axis _ hmem) hs.pos (fun k hk => ⟨by have := min64 k hk; show k ≤ -2 * ((53 : ℕ) : ℤ); change k ≤ -4 * ((53 : ℕ) : ℤ) at this; omega,
      hs.small k hk⟩) hs.angle
  exact ⟨m, f, n, hm, h1, h2, (corner64_normals _).2.1.1 h3⟩

/-- The bottom of a box corner, the rectangle (0, 0, 0), (20, 0, 0), (20, 15, 0), (0, 15, 0), divided along one diagonal … -/
noncomputable def rect64 : List (Vec (Fl binary64) 3 × Vec (Fl binary64) 3 × Vec (Fl binary64) 3) :=
  [(p64 20 0 0, p64 0 0 0, p64 0 15 0), (p64 0 15 0, p64 20 15 0, p64 20 0 0), (p64 0 15 0, p64 0 0 0, p64 0 0 5), (p64 0 0 5, p64 0 0 0, p64 20 0 0)]

/-- … and along the other. -/
noncomputable def rect64' : List (Vec (Fl binary64) 3 × Vec (Fl binary64) 3 × Vec (Fl binary64) 3) :=
  [(p64 20 0 0, p64 0 0 0, p64 20 15 0), (p64 20 15 0, p64 0 0 0, p64 0 15 0), (p64 0 15 0, p64 0 0 0, p64 0 0 5), (p64 0 0 5, p64 0 0 0, p64 20 0 0)]

theorem rect64_apart : Apart (corners rect64) := by
  refine apart64 _ fun x hx => ?_
  simp only [rect64, corners, List.flatMap_cons, List.flatMap_nil, List.mem_append, List.mem_cons, List.not_mem_nil, or_false] at hx
  rcases hx with (rfl | rfl | rfl) | (rfl | rfl | rfl) | (rfl | rfl | rfl) | (rfl | rfl | rfl) <;> exact ⟨_, _, _, _, _, _, rfl⟩

theorem rect64'_apart : Apart (corners rect64') := by
  refine apart64 _ fun x hx => ?_
  simp only [rect64', corners, List.flatMap_cons, List.flatMap_nil, List.mem_append, List.mem_cons, List.not_mem_nil, or_false] at hx
  rcases hx with (rfl | rfl | rfl) | (rfl | rfl | rfl) | (rfl | rfl | rfl) | (rfl | rfl | rfl) <;> exact ⟨_, _, _, _, _, _, rfl⟩

theorem rect64_normals (n : Vec ℝ 3) :
    (IsNormal (trueTriangle (p64 20 0 0, p64 0 0 0, p64 20 15 0)) n ↔ n = ![0, 0, -1]) ∧
    (IsNormal (trueTriangle (p64 20 15 0, p64 0 0 0, p64 0 15 0)) n ↔ n = ![0, 0, -1]) := by
  refine ⟨?_, ?_⟩ <;> rw [tri64] <;> push_cast
  · exact normal_lit _ _ _ _ _ _ _ _ _ _ _ _ 300 (by norm_num) (by norm_num) (by norm_num) (by norm_num) (by norm_num) n
  · exact normal_lit _ _ _ _ _ _ _ _ _ _ _ _ 300 (by norm_num) (by norm_num) (by norm_num) (by norm_num) (by norm_num) n

theorem rect64_shaped : Shaped (1 / 10 ^ 12) (p64 20 0 0, p64 0 0 0, p64 20 15 0) ∧ Shaped (1 / 10 ^ 12) (p64 20 15 0, p64 0 0 0, p64 0 15 0) := by
  have key : ∀ t : Vec (Fl binary64) 3 × Vec (Fl binary64) 3 × Vec (Fl binary64) 3, twiceArea (trueTriangle t) = 300 →
      sidesProduct (trueTriangle t) ≤ 500 → Shaped (1 / 10 ^ 12) t := by
    intro t hA hP
    have hu := unit64'
    have hu0 := binary64.unit_pos
    change binary64.unit ≤ _ at hu
    refine ⟨by rw [hA]; norm_num, fun k hk => ?_, ?_, ?_⟩
    · rw [hA]; exact (small64' (by norm_num) k hk).2
    · change 16 * (binary64.unit * _) ≤ _
      rw [hA]
      have h1 := mul_le_mul_of_nonneg_left hP hu0.le
      norm_num at *
      linarith
    · change 21 * binary64.unit * _ ≤ _
      rw [hA]
      have h1 : sidesProduct (trueTriangle t) / 300 ≤ 500 / 300 := by rw [div_le_div_iff_of_pos_right (by norm_num)]; exact hP
      have := mul_le_mul_of_nonneg_left h1 hu0.le
      norm_num at *
      linarith
  refine ⟨key _ ?_ ?_, key _ ?_ ?_⟩ <;> rw [tri64] <;> push_cast
  · exact area_lit _ _ _ _ _ _ _ _ _ _ (by norm_num) (by norm_num)
  · exact (sides_lit (r := 20) (s := 25) (by norm_num) (by norm_num) (by norm_num) (by norm_num)).trans (by norm_num)
  · exact area_lit _ _ _ _ _ _ _ _ _ _ (by norm_num) (by norm_num)
  · exact (sides_lit (r := 25) (s := 15) (by norm_num) (by norm_num) (by norm_num) (by norm_num)).trans (by norm_num)

/-- The corner of a box: bitwise the same vertex normal for both diagonals of the bottom. -/
example : ∃ m m' ns ns' v, ∃ i i' : Nat, buildMesh true (2 ^ 64) 64 rect64 = .ok m ∧ buildMesh true (2 ^ 64) 64 rect64' = .ok m' ∧
    m.points[i]? = some (p64 0 0 0) ∧ m'.points[i']? = some (p64 0 0 0) ∧ calcVertexNormals m = .ok ns ∧ calcVertexNormals m' = .ok ns' ∧
    ns[i]? = some v ∧ ns'[i']? = some v := by
  obtain ⟨m, hm, hb⟩ := C48_build_succeeds true (2 ^ 64) 64 rect64 (by simp [rect64]) rect64_apart
  obtain ⟨m', hm', hb'⟩ := C48_build_succeeds true (2 ^ 64) 64 rect64' (by simp [rect64']) rect64'_apart
  have hmem : p64 0 0 0 ∈ m.points := by
    rw [(C43_vertices true _ rect64 (by simp [rect64]) m hb).1]
    simp [corners, rect64, List.mem_eraseDups]
  have hmem' : p64 0 0 0 ∈ m'.points := by
    rw [(C43_vertices true _ rect64' (by simp [rect64']) m' hb').1]
    simp [corners, rect64', List.mem_eraseDups]
  obtain ⟨i, hi, hO⟩ := List.mem_iff_getElem.1 hmem
  obtain ⟨i', hi', hO'⟩ := List.mem_iff_getElem.1 hmem'
  have hN := corner64_normals
  have hR := rect64_normals
  have hat : ∀ t ∈ rect64, p64 0 0 0 ∈ [t.1, t.2.1, t.2.2] → t ∈ corner64 := by
    intro t ht hp
    simp only [rect64, List.mem_cons, List.not_mem_nil, or_false] at ht
    rcases ht with rfl | rfl | rfl | rfl
    · simp [corner64]
    · simp [p64_inj] at hp
    · simp [corner64]
    · simp [corner64]
  obtain ⟨ns, ns', v, h1, h2, h3, h4⟩ := C112_partial true true (2 ^ 64) (2 ^ 64) rect64 rect64' (by simp [rect64]) (by simp [rect64']) m m' hb hb'
    (by show 9 ≤ 53; norm_num) min64 (δ := 1 / 10 ^ 13) (δ' := 1 / 10 ^ 12) i i' hi hi' (hO.trans hO'.symm)
    (by
      intro t ht hp
      rw [hO] at hp
      exact ⟨corner64_shaped t (hat t ht hp), corner64_axis t (hat t ht hp)⟩)
    (by
      intro t ht _
      simp only [rect64', List.mem_cons, List.not_mem_nil, or_false] at ht
      have h13 : ∀ t ∈ corner64, Shaped (1 / 10 ^ 12) t := fun t ht =>
        { corner64_shaped t ht with accurate := (corner64_shaped t ht).accurate.trans (by norm_num) }
      rcases ht with rfl | rfl | rfl | rfl
      · exact ⟨rect64_shaped.1, 2, rfl, rfl⟩
      · exact ⟨rect64_shaped.2, 2, rfl, rfl⟩
      · exact ⟨h13 _ (by simp [corner64]), 0, rfl, rfl⟩
      · exact ⟨h13 _ (by simp [corner64]), 1, rfl, rfl⟩)
    (by
      intro n
      rw [hO]
      constructor
      · rintro ⟨t, ht, hp, hn⟩
        have hc := hat t ht hp
        simp only [corner64, List.mem_cons, List.not_mem_nil, or_false] at hc
        rcases hc with rfl | rfl | rfl
        · exact ⟨_, by simp [rect64'], hp, hn⟩
        · exact ⟨(p64 20 0 0, p64 0 0 0, p64 20 15 0), by simp [rect64'], by simp, (hR n).1.2 ((hN n).2.1.1 hn)⟩
        · exact ⟨_, by simp [rect64'], hp, hn⟩
      · rintro ⟨t, ht, hp, hn⟩
        simp only [rect64', List.mem_cons, List.not_mem_nil, or_false] at ht
        rcases ht with rfl | rfl | rfl | rfl
        · exact ⟨(p64 20 0 0, p64 0 0 0, p64 0 15 0), by simp [rect64], by simp, (hN n).2.1.2 ((hR n).1.1 hn)⟩
        · exact ⟨(p64 20 0 0, p64 0 0 0, p64 0 15 0), by simp [rect64], by simp, (hN n).2.1.2 ((hR n).2.1 hn)⟩
        · exact ⟨_, by simp [rect64], hp, hn⟩
        · exact ⟨_, by simp [rect64], hp, hn⟩)
  exact ⟨m, m', ns, ns', v, i, i', hm, hm', by rw [List.getElem?_eq_getElem hi, hO], by rw [List.getElem?_eq_getElem hi', hO'], h1, h2, h3, h4⟩

/-- `double` and `float` are such formats. -/
example (w : Nat) := C112_counterexample (F := binary64) (by show 16 ≤ 53; norm_num) min64 true (2 ^ 64) w (by norm_num)
example (w : Nat) := C112_counterexample (F := binary32) (by show 16 ≤ 24; norm_num)
  (by intro k hk; cases hk; show (-149 : ℤ) ≤ -4 * (24 : ℕ); norm_num) true (2 ^ 64) w (by norm_num)
end Examples
end Verif
