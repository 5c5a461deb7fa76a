import Verif.Props.FloatSegment3
import Verif.Props.IeeeCross

set_option linter.unusedSectionVars false

/-
C150: intersections of segments in space, and of segments and rays, in IEEE arithmetic, with overflow.
-/
namespace Verif
open Spec
namespace Ieee
variable {F : IeeeFormat}

/-- The numbers `closest_point_on_line_parameters` divides. -/
theorem params_near {k : ℕ} {o d o' d' : Vec (Ieee F) 3} {x y x' y' : Vec (Fl F.toFloatFormat) 3} (ho : NearVec k o x) (ho' : NearVec k o' x')
    (hd : NearVec (k + 1) d y) (hd' : NearVec (k + 1) d' y') (hk : 4 * k + 11 < F.emax) :
    Near (4 * k + 11) (dot d d * dot d' d' - dot d d' * dot d d') (dot y y * dot y' y' - dot y y' * dot y y') ∧
    Near (4 * k + 11) (dot d d' * dot d' (vsub o o') - dot d' d' * dot d (vsub o o')) (dot y y' * dot y' (vsub x x') - dot y' y' * dot y (vsub x x')) ∧
    Near (4 * k + 11) (dot d d * dot d' (vsub o o') - dot d d' * dot d (vsub o o')) (dot y y * dot y' (vsub x x') - dot y y' * dot y (vsub x x')) := by
  have hw := ho.vsub ho' (by omega)
  have a := hd.dot hd (by omega)
  have b := hd.dot hd' (by omega)
  have c := hd'.dot hd' (by omega)
  have d := hd.dot hw (by omega)
  have e := hd'.dot hw (by omega)
  exact ⟨((a.mul c (by omega)).sub (b.mul b (by omega)) (by omega)).mono (by omega),
    ((b.mul e (by omega)).sub (c.mul d (by omega)) (by omega)).mono (by omega),
    ((a.mul e (by omega)).sub (b.mul d (by omega)) (by omega)).mono (by omega)⟩

/-- **C150** Segments with a common point, in IEEE arithmetic: C146 holds for coordinates up to `2 ^ k`, `4 k + 11 < emax`. -/
theorem C150_common_point_partial [Tol (Ieee F)] (k : ℕ) (hk : 4 * k + 11 < F.emax) (f g : Segment (Ieee F) 3) (e : Ieee F)
    (hf : ∀ i, AtMost k (f.source i) ∧ AtMost k (f.target i)) (hg : ∀ i, AtMost k (g.source i) ∧ AtMost k (g.target i))
    (hp : 9 ≤ F.prec) (hmin : ∀ k, F.emin = some k → k ≤ -4 * (F.prec : ℤ)) {s m W E θ M : ℝ}
    (h : Spec.Transversal F.prec F.emin s m W (reals f.source) (fun i => reals f.target i - reals f.source i)
      (reals g.source) (fun i => reals g.target i - reals g.source i))
    (hM : M = s ^ 2 * (Spec.norm (fun i => reals f.target i - reals f.source i) ^ 2 * Spec.norm (fun i => reals g.target i - reals g.source i) ^ 2))
    (hz : ∀ (z : Ieee F) x, z.val? = some x → 1 / 2 * M ≤ |x| → Tol.isZero z e = false)
    (hE : E = (2 : ℝ)⁻¹ ^ F.prec / s ^ 2 * (W / s)) (hθ : θ ≤ 1)
    (ht : ∀ (z : Ieee F) x, z.val? = some x → -θ ≤ x → x ≤ 1 + θ → Tol.isLess z 0 e = false ∧ Tol.isGreater z 1 e = false)
    (hf' : 122 * E ≤ θ * Spec.norm (fun i => reals f.target i - reals f.source i)) (hg' : 122 * E ≤ θ * Spec.norm (fun i => reals g.target i - reals g.source i))
    {x : Fin 3 → ℝ} (hxf : x ∈ Spec.segment (reals f.source) (reals f.target)) (hxg : x ∈ Spec.segment (reals g.source) (reals g.target)) :
    ∃ q, intersectSegment3 f g e = some q ∧ (∀ i, ∃ r, (q i).val? = some r) ∧ Spec.dist (reals q) x ≤ (2 : ℝ)⁻¹ ^ F.prec * Spec.norm x + 127 * E := by
  have na : NearVec k f.source (flOf f.source) := fun i => (hf i).1.near
  have nb : NearVec k f.target (flOf f.target) := fun i => (hf i).2.near
  have nc : NearVec k g.source (flOf g.source) := fun i => (hg i).1.near
  have nd : NearVec k g.target (flOf g.target) := fun i => (hg i).2.near
  rw [na.reals, nb.reals, nc.reals, nd.reals] at h hM
  rw [na.reals, nb.reals] at hf' hxf
  rw [nc.reals, nd.reals] at hg' hxg
  have hM0 : 0 < M := by
    have h1 := lt_of_lt_of_le h.pos h.le_first
    have h2 := lt_of_lt_of_le h.pos h.le_second
    have h3 := h.sine_pos
    rw [hM]; positivity
  let tol : Tol (Fl F.toFloatFormat) := tolOf (fun x => |x.1| < 1 / 2 * M) (fun x => x.1 < -θ) (fun x => 1 + θ < x.1)
  obtain ⟨q, hq, hqd⟩ := C146_common_point ⟨flOf f.source, flOf f.target⟩ ⟨flOf g.source, flOf g.target⟩ (0 : Fl F.toFloatFormat) hp hmin (θ := θ) h
    (fun x hx => decide_eq_false (not_lt.2 (by rw [hM]; exact hx))) hE (fun x hx => decide_eq_false (not_lt.2 hx)) (fun x hx => decide_eq_false (not_lt.2 hx))
    hf' hg' hxf hxg
  have nf := nb.vsub na (by omega)
  have ng := nd.vsub nc (by omega)
  obtain ⟨m1, m2, m3⟩ := params_near na nc nf ng hk
  unfold intersectSegment3 closestPointOnLineParameters at hq
  simp only at hq
  split_ifs at hq with c1
  replace c1 := not_lt.1 fun hc => c1 (decide_eq_true hc)
  simp only at hq
  split_ifs at hq with c2
  simp only [Bool.or_eq_true, not_or] at c2
  obtain ⟨⟨⟨c2, c3⟩, c4⟩, c5⟩ := c2
  replace c2 := not_lt.1 fun hc => c2 (decide_eq_true hc)
  replace c3 := not_lt.1 fun hc => c3 (decide_eq_true hc)
  replace c4 := not_lt.1 fun hc => c4 (decide_eq_true hc)
  replace c5 := not_lt.1 fun hc => c5 (decide_eq_true hc)
  have hd0 := abs_pos.1 (lt_of_lt_of_le (by linarith : 0 < 1 / 2 * M) c1)
  have mt := m2.div' (m := 1) m1 hd0 (by rw [pow_one, abs_le]; constructor <;> linarith) (by omega)
  have ms := m3.div' (m := 1) m1 hd0 (by rw [pow_one, abs_le]; constructor <;> linarith) (by omega)
  have mp := (na.mono (by omega : k ≤ k + 1 + 1)).vadd (nf.vscale mt (by omega)) (by omega)
  rw [Option.some.inj hq] at mp
  obtain ⟨t1, t2⟩ := ht _ _ mt.val c4 c5
  obtain ⟨s1, s2⟩ := ht _ _ ms.val c2 c3
  refine ⟨_, ?_, fun i => ⟨_, (mp i).val⟩, ?_⟩
  · unfold intersectSegment3 closestPointOnLineParameters
    simp only
    rw [if_neg (by rw [hz _ _ m1.val c1]; simp)]
    simp only
    rw [t1, t2, s1, s2]
    rfl
  · rw [mp.reals]; exact hqd

/-- **C150** What is reported for two segments, in IEEE arithmetic: C146 holds for coordinates up to `2 ^ k`, if the tolerance takes denominators
below `2 ^ -j` for zero and `4 k + j + 11 < emax`. -/
theorem C150_segment_partial [Tol (Ieee F)] (k j : ℕ) (hk : 4 * k + j + 11 < F.emax) (f g : Segment (Ieee F) 3) (e : Ieee F)
    (hf : ∀ i, AtMost k (f.source i) ∧ AtMost k (f.target i)) (hg : ∀ i, AtMost k (g.source i) ∧ AtMost k (g.target i))
    (hp : 9 ≤ F.prec) (hmin : ∀ k, F.emin = some k → k ≤ -4 * (F.prec : ℤ)) {s m W E θ : ℝ}
    (h : Spec.Transversal F.prec F.emin s m W (reals f.source) (fun i => reals f.target i - reals f.source i)
      (reals g.source) (fun i => reals g.target i - reals g.source i))
    (hE : E = (2 : ℝ)⁻¹ ^ F.prec / s ^ 2 * (W / s)) (hθ : θ ≤ 1)
    (hz : ∀ (z : Ieee F) x, z.val? = some x → |x| * 2 ^ j < 1 → Tol.isZero z e = true)
    (hl : ∀ (z : Ieee F) x, z.val? = some x → x < -θ → Tol.isLess z 0 e = true)
    (hgr : ∀ (z : Ieee F) x, z.val? = some x → 1 + θ < x → Tol.isGreater z 1 e = true)
    {q : Vec (Ieee F) 3} (hq : intersectSegment3 f g e = some q) :
    (∀ i, ∃ r, (q i).val? = some r) ∧ ∃ P Q, Spec.IsDistance (Spec.line (reals f.source) (fun i => reals f.target i - reals f.source i))
        (Spec.line (reals g.source) (fun i => reals g.target i - reals g.source i)) (Spec.dist P Q) ∧
      P ∈ Spec.segmentUpTo (θ + 122 * E / Spec.norm (fun i => reals f.target i - reals f.source i)) (reals f.source) (reals f.target) ∧
      Q ∈ Spec.segmentUpTo (θ + 122 * E / Spec.norm (fun i => reals g.target i - reals g.source i)) (reals g.source) (reals g.target) ∧
      Spec.dist (reals q) P ≤ (2 : ℝ)⁻¹ ^ F.prec * Spec.norm P + 127 * E := by
  have na : NearVec k f.source (flOf f.source) := fun i => (hf i).1.near
  have nb : NearVec k f.target (flOf f.target) := fun i => (hf i).2.near
  have nc : NearVec k g.source (flOf g.source) := fun i => (hg i).1.near
  have nd : NearVec k g.target (flOf g.target) := fun i => (hg i).2.near
  rw [na.reals, nb.reals, nc.reals, nd.reals] at h ⊢
  let tol : Tol (Fl F.toFloatFormat) := tolOf (fun x => x.1 < x.1) (fun x => x.1 < -θ) (fun x => 1 + θ < x.1)
  obtain ⟨P, Q, h1, -, -, h2, h3, -⟩ := C146_segment ⟨flOf f.source, flOf f.target⟩ ⟨flOf g.source, flOf g.target⟩ (0 : Fl F.toFloatFormat) hp hmin h
    (fun x hx => decide_eq_false (lt_irrefl _)) hE
  have nf := nb.vsub na (by omega)
  have ng := nd.vsub nc (by omega)
  obtain ⟨m1, m2, m3⟩ := params_near na nc nf ng (by omega)
  unfold intersectSegment3 closestPointOnLineParameters at hq
  simp only at hq
  split_ifs at hq with c1
  simp only at hq
  split_ifs at hq with c2
  simp only [Bool.or_eq_true, not_or] at c2
  obtain ⟨⟨⟨c2, c3⟩, c4⟩, c5⟩ := c2
  have hd1 := not_lt.1 fun hc => c1 (hz _ _ m1.val hc)
  have mt := m2.div m1 hd1 (by omega)
  have ms := m3.div m1 hd1 (by omega)
  have s1 := not_lt.1 fun hc => c2 (hl _ _ ms.val hc)
  have s2 := not_lt.1 fun hc => c3 (hgr _ _ ms.val hc)
  have t1 := not_lt.1 fun hc => c4 (hl _ _ mt.val hc)
  have t2 := not_lt.1 fun hc => c5 (hgr _ _ mt.val hc)
  have mt' : Near 1 _ _ := ⟨mt.val, by rw [pow_one, abs_le]; constructor <;> linarith⟩
  have mp := (na.mono (by omega : k ≤ k + 1 + 1)).vadd (nf.vscale mt' (by omega)) (by omega)
  rw [Option.some.inj hq] at mp
  obtain ⟨y, hy, key⟩ : ∃ y, NearVec (k + 1 + 1 + 1) q y ∧
      intersectSegment3 ⟨flOf f.source, flOf f.target⟩ ⟨flOf g.source, flOf g.target⟩ (0 : Fl F.toFloatFormat) = some y := ⟨_, mp, by
    unfold intersectSegment3 closestPointOnLineParameters
    simp only
    rw [if_neg (by intro h0; exact lt_irrefl _ (of_decide_eq_true h0))]
    simp only
    rw [if_neg (by
      simp only [Bool.or_eq_true, not_or]
      exact ⟨⟨⟨fun hc => not_lt.2 s1 (of_decide_eq_true hc), fun hc => not_lt.2 s2 (of_decide_eq_true hc)⟩,
        fun hc => not_lt.2 t1 (of_decide_eq_true hc)⟩, fun hc => not_lt.2 t2 (of_decide_eq_true hc)⟩)]⟩
  obtain ⟨h4, h5⟩ := h3 θ (fun x hx => decide_eq_true hx) (fun x hx => decide_eq_true hx) (by rw [key]; simp)
  refine ⟨fun i => ⟨_, (hy i).val⟩, P, Q, h1, h4, h5, ?_⟩
  rw [hy.reals]
  exact h2 _ key

/-- **C150** What is reported for a segment and a ray, in IEEE arithmetic: C146 holds for coordinates of the points and of the direction up to
`2 ^ k`, if the tolerance takes denominators below `2 ^ -j` for zero and `5 k + j + 13 < emax`. -/
theorem C150_ray_partial [Tol (Ieee F)] (k j : ℕ) (hk : 5 * k + j + 13 < F.emax) (f : Segment (Ieee F) 3) (r : Ray (Ieee F) 3) (e : Ieee F)
    (hf : ∀ i, AtMost k (f.source i) ∧ AtMost k (f.target i)) (hr : ∀ i, AtMost k (r.origin i) ∧ AtMost k (r.direction i))
    (hp : 9 ≤ F.prec) (hmin : ∀ k, F.emin = some k → k ≤ -4 * (F.prec : ℤ)) {s m W E θ : ℝ}
    (h : Spec.Transversal F.prec F.emin s m W (reals f.source) (fun i => reals f.target i - reals f.source i) (reals r.origin) (reals r.direction))
    (hE : E = (2 : ℝ)⁻¹ ^ F.prec / s ^ 2 * (W / s))
    (hz : ∀ (z : Ieee F) x, z.val? = some x → |x| * 2 ^ j < 1 → Tol.isZero z e = true)
    (hl : ∀ (z : Ieee F) x, z.val? = some x → x < -θ → Tol.isLess z 0 e = true)
    (hgr : ∀ (z : Ieee F) x, z.val? = some x → 1 + θ < x → Tol.isGreater z 1 e = true)
    {q : Vec (Ieee F) 3} (hq : intersectSegmentRay f r e = some q) :
    (∀ i, ∃ x, (q i).val? = some x) ∧ ∃ P Q, Spec.IsDistance (Spec.line (reals f.source) (fun i => reals f.target i - reals f.source i))
        (Spec.line (reals r.origin) (reals r.direction)) (Spec.dist P Q) ∧
      P ∈ Spec.segmentUpTo (θ + 122 * E / Spec.norm (fun i => reals f.target i - reals f.source i)) (reals f.source) (reals f.target) ∧
      Q ∈ Spec.rayUpTo (θ + 122 * E / Spec.norm (reals r.direction)) (reals r.origin) (reals r.direction) ∧
      Spec.dist (reals q) Q ≤ (2 : ℝ)⁻¹ ^ F.prec * Spec.norm Q + 127 * E := by
  have na : NearVec k f.source (flOf f.source) := fun i => (hf i).1.near
  have nb : NearVec k f.target (flOf f.target) := fun i => (hf i).2.near
  have nc : NearVec k r.origin (flOf r.origin) := fun i => (hr i).1.near
  have nd : NearVec k r.direction (flOf r.direction) := fun i => (hr i).2.near
  rw [na.reals, nb.reals, nc.reals, nd.reals] at h ⊢
  let tol : Tol (Fl F.toFloatFormat) := tolOf (fun x => x.1 < x.1) (fun x => x.1 < -θ) (fun x => 1 + θ < x.1)
  obtain ⟨P, Q, h1, -, -, h2, h3, -⟩ := C146_ray ⟨flOf f.source, flOf f.target⟩ ⟨flOf r.origin, flOf r.direction⟩ (0 : Fl F.toFloatFormat) hp hmin h
    (fun x hx => decide_eq_false (lt_irrefl _)) hE
  have nf := nb.vsub na (by omega)
  obtain ⟨m1, m2, m3⟩ := params_near na nc nf (nd.mono (by omega)) (by omega)
  unfold intersectSegmentRay closestPointOnLineParameters at hq
  simp only at hq
  split_ifs at hq with c1
  simp only at hq
  split_ifs at hq with c2
  simp only [Bool.or_eq_true, not_or] at c2
  obtain ⟨⟨c3, c4⟩, c5⟩ := c2
  have hd1 := not_lt.1 fun hc => c1 (hz _ _ m1.val hc)
  have mt := m2.div m1 hd1 (by omega)
  have ms := m3.div m1 hd1 (by omega)
  have t1 := not_lt.1 fun hc => c3 (hl _ _ mt.val hc)
  have t2 := not_lt.1 fun hc => c4 (hgr _ _ mt.val hc)
  have s1 := not_lt.1 fun hc => c5 (hl _ _ ms.val hc)
  have mp := (nc.mono (by omega : k ≤ k + (4 * k + 11 + j))).vadd (nd.vscale ms (by omega)) (by omega)
  rw [Option.some.inj hq] at mp
  obtain ⟨y, hy, key⟩ : ∃ y, NearVec (k + (4 * k + 11 + j) + 1) q y ∧
      intersectSegmentRay ⟨flOf f.source, flOf f.target⟩ ⟨flOf r.origin, flOf r.direction⟩ (0 : Fl F.toFloatFormat) = some y := ⟨_, mp, by
    unfold intersectSegmentRay closestPointOnLineParameters
    simp only
    rw [if_neg (by intro h0; exact lt_irrefl _ (of_decide_eq_true h0))]
    simp only
    rw [if_neg (by
      simp only [Bool.or_eq_true, not_or]
      exact ⟨⟨fun hc => not_lt.2 t1 (of_decide_eq_true hc), fun hc => not_lt.2 t2 (of_decide_eq_true hc)⟩,
        fun hc => not_lt.2 s1 (of_decide_eq_true hc)⟩)]⟩
  obtain ⟨h4, h5⟩ := h3 θ (fun x hx => decide_eq_true hx) (fun x hx => decide_eq_true hx) (by rw [key]; simp)
  refine ⟨fun i => ⟨_, (hy i).val⟩, P, Q, h1, h4, h5, ?_⟩
  rw [hy.reals]
  exact h2 _ key

/-! ### Overflow -/

theorem dot_simple {a b : Vec (Ieee F) 3} {u v : Fin 3 → ℝ} {z : ℝ} (ha : ∀ i, (a i).val? = some (u i)) (hb : ∀ i, (b i).val? = some (v i))
    (h0 : Simple F (u 0 * v 0)) (h1 : Simple F (u 1 * v 1)) (h2 : Simple F (u 2 * v 2)) (h01 : Simple F (u 0 * v 0 + u 1 * v 1))
    (hz : u 0 * v 0 + u 1 * v 1 + u 2 * v 2 = z) (h : Simple F z) : (dot a b).val? = some z := by
  have e : dot a b = 0 + a 0 * b 0 + a 1 * b 1 + a 2 * b 2 := by
    unfold dot
    rw [Fin.foldl_succ_last, Fin.foldl_succ_last, Fin.foldl_succ_last, Fin.foldl_zero]
    rfl
  rw [e]
  exact add_simple (add_simple (add_simple rfl (mul_simple (ha 0) (hb 0) rfl h0) (zero_add _) h0) (mul_simple (ha 1) (hb 1) rfl h1) rfl h01)
    (mul_simple (ha 2) (hb 2) rfl h2) hz h

/-- **C150** The bound on the coordinates is needed, and more than infinite results are at stake: with `M = 2 ^ n`, `emax = 4 n + 4` (`2 ^ 255` for
double, `2 ^ 31` for float), the segments from `(-M, 0, 0)` to `(M, 0, 0)` and from `(0, -M, 0)` to `(0, M, 0)` meet in the origin, but the
point reported is `(-M, 0, 0)`, the source of the first one. -/
theorem C150_counterexample [Tol (Ieee F)] (e : Ieee F) (n : ℕ) (hn : F.emax = 4 * n + 4) (h1 : Tol.isZero (inf false : Ieee F) e = false)
    (h2 : ∀ z : Ieee F, z.val? = some 0 → Tol.isLess z 0 e = false ∧ Tol.isGreater z 1 e = false) :
    ∃ (f g : Segment (Ieee F) 3) (M : ℝ) (q : Vec (Ieee F) 3), M = 2 ^ n ∧
      (∀ i, AtMost n (f.source i) ∧ AtMost n (f.target i) ∧ AtMost n (g.source i) ∧ AtMost n (g.target i)) ∧
      reals f.source = ![-M, 0, 0] ∧ reals f.target = ![M, 0, 0] ∧ reals g.source = ![0, -M, 0] ∧ reals g.target = ![0, M, 0] ∧
      Spec.segment (reals f.source) (reals f.target) ∩ Spec.segment (reals g.source) (reals g.target) = {0} ∧
      intersectSegment3 f g e = some q ∧ (∀ i, ∃ r, (q i).val? = some r) ∧ reals q = ![-M, 0, 0] := by
  have hlt : n < F.emax := by omega
  set m := pow2 F n hlt with hm
  set M : ℝ := 2 ^ n with hM
  have hM0 : 0 < M := by positivity
  have hv : m.val? = some M := pow2_val _ _
  have h0 : (0 : Ieee F).val? = some 0 := rfl
  have hv' : (-m).val? = some (-M) := neg_val hv
  have S0 : Simple F 0 := .inl rfl
  have SM : ∀ i, i < F.emax → Simple F (2 ^ i) := fun i hi => .inr ⟨i, hi, .inl rfl⟩
  have SN : ∀ i, i < F.emax → Simple F (-2 ^ i) := fun i hi => .inr ⟨i, hi, .inr rfl⟩
  have e2 : (2 : ℝ) ^ (n + 1) = 2 * M := by rw [pow_succ, ← hM]; ring
  have e3 : (2 : ℝ) ^ (2 * n + 1) = 2 * M * M := by rw [hM]; ring
  have e4 : (2 : ℝ) ^ (2 * n + 2) = 4 * M * M := by rw [hM]; ring
  have e5 : (2 : ℝ) ^ (4 * n + 3) = 8 * M * M * M * M := by rw [hM]; ring
  have e6 : (2 : ℝ) ^ (4 * n + 4) = 16 * M * M * M * M := by rw [hM]; ring
  set f : Segment (Ieee F) 3 := ⟨![-m, 0, 0], ![m, 0, 0]⟩ with hf
  set g : Segment (Ieee F) 3 := ⟨![0, -m, 0], ![0, m, 0]⟩ with hg
  have vf : ∀ i, (vsub f.target f.source i).val? = some ((![2 ^ (n + 1), 0, 0] : Fin 3 → ℝ) i) := by
    intro i; fin_cases i
    · exact sub_simple (z := 2 ^ (n + 1)) hv hv' (by rw [e2]; ring) (SM _ (by omega))
    · exact sub_simple h0 h0 (sub_zero _) S0
    · exact sub_simple h0 h0 (sub_zero _) S0
  have vg : ∀ i, (vsub g.target g.source i).val? = some ((![0, 2 ^ (n + 1), 0] : Fin 3 → ℝ) i) := by
    intro i; fin_cases i
    · exact sub_simple h0 h0 (sub_zero _) S0
    · exact sub_simple (z := 2 ^ (n + 1)) hv hv' (by rw [e2]; ring) (SM _ (by omega))
    · exact sub_simple h0 h0 (sub_zero _) S0
  have vw : ∀ i, (vsub f.source g.source i).val? = some ((![-2 ^ n, 2 ^ n, 0] : Fin 3 → ℝ) i) := by
    intro i; fin_cases i
    · exact sub_simple hv' h0 (sub_zero _) (SN _ hlt)
    · exact sub_simple h0 hv' (by rw [zero_sub, neg_neg]; rfl) (SM _ hlt)
    · exact sub_simple h0 h0 (sub_zero _) S0
  have va : (dot (vsub f.target f.source) (vsub f.target f.source)).val? = some (2 ^ (2 * n + 2)) := by
    refine dot_simple vf vf ?_ ?_ ?_ ?_ ?_ (SM _ (by omega)) <;> simp only [Matrix.cons_val_zero, Matrix.cons_val_one, Matrix.cons_val, mul_zero, add_zero]
    · rw [← pow_add]; exact SM _ (by omega)
    · exact S0
    · exact S0
    · rw [← pow_add]; exact SM _ (by omega)
    · rw [← pow_add]; congr 1; omega
  have vb : (dot (vsub f.target f.source) (vsub g.target g.source)).val? = some 0 := by
    refine dot_simple vf vg ?_ ?_ ?_ ?_ ?_ S0 <;> simp only [Matrix.cons_val_zero, Matrix.cons_val_one, Matrix.cons_val, mul_zero, zero_mul, add_zero] <;> exact S0
  have vc : (dot (vsub g.target g.source) (vsub g.target g.source)).val? = some (2 ^ (2 * n + 2)) := by
    refine dot_simple vg vg ?_ ?_ ?_ ?_ ?_ (SM _ (by omega)) <;> simp only [Matrix.cons_val_zero, Matrix.cons_val_one, Matrix.cons_val, mul_zero, add_zero, zero_add]
    · exact S0
    · rw [← pow_add]; exact SM _ (by omega)
    · exact S0
    · rw [← pow_add]; exact SM _ (by omega)
    · rw [← pow_add]; congr 1; omega
  have vd : (dot (vsub f.target f.source) (vsub f.source g.source)).val? = some (-2 ^ (2 * n + 1)) := by
    refine dot_simple vf vw ?_ ?_ ?_ ?_ ?_ (SN _ (by omega)) <;> simp only [Matrix.cons_val_zero, Matrix.cons_val_one, Matrix.cons_val, mul_zero, zero_mul, mul_neg, add_zero]
    · rw [← pow_add]; exact SN _ (by omega)
    · exact S0
    · exact S0
    · rw [← pow_add]; exact SN _ (by omega)
    · rw [← pow_add]; congr 2; omega
  have ve : (dot (vsub g.target g.source) (vsub f.source g.source)).val? = some (2 ^ (2 * n + 1)) := by
    refine dot_simple vg vw ?_ ?_ ?_ ?_ ?_ (SM _ (by omega)) <;> simp only [Matrix.cons_val_zero, Matrix.cons_val_one, Matrix.cons_val, mul_zero, zero_mul, add_zero, zero_add]
    · exact S0
    · rw [← pow_add]; exact SM _ (by omega)
    · exact S0
    · rw [← pow_add]; exact SM _ (by omega)
    · rw [← pow_add]; congr 1; omega
  have hden : dot (vsub f.target f.source) (vsub f.target f.source) * dot (vsub g.target g.source) (vsub g.target g.source)
      - dot (vsub f.target f.source) (vsub g.target g.source) * dot (vsub f.target f.source) (vsub g.target g.source) = inf false := by
    rw [mul_over va vc (n := 4 * n + 4) (by omega) (.inl (by rw [← pow_add]; congr 1; omega)), decide_eq_false (not_lt.2 (by positivity))]
    exact inf_minus (mul_simple vb vb (mul_zero _) S0)
  have ht : ((dot (vsub f.target f.source) (vsub g.target g.source) * dot (vsub g.target g.source) (vsub f.source g.source)
      - dot (vsub g.target g.source) (vsub g.target g.source) * dot (vsub f.target f.source) (vsub f.source g.source)) / inf false).val? = some 0 := by
    refine div_inf (r := 2 ^ (4 * n + 3)) (sub_simple (mul_simple vb ve (zero_mul _) S0) (mul_simple (z := -2 ^ (4 * n + 3)) vc vd ?_ (SN _ (by omega))) ?_ (SM _ (by omega))) false
    · rw [e3, e4, e5]; ring
    · ring
  have hs : ((dot (vsub f.target f.source) (vsub f.target f.source) * dot (vsub g.target g.source) (vsub f.source g.source)
      - dot (vsub f.target f.source) (vsub g.target g.source) * dot (vsub f.target f.source) (vsub f.source g.source)) / inf false).val? = some 0 := by
    refine div_inf (r := 2 ^ (4 * n + 3)) (sub_simple (mul_simple (z := 2 ^ (4 * n + 3)) va ve ?_ (SM _ (by omega))) (mul_simple vb vd (zero_mul _) S0) (sub_zero _) (SM _ (by omega))) false
    rw [e3, e4, e5]; ring
  obtain ⟨t1, t2⟩ := h2 _ ht
  obtain ⟨s1, s2⟩ := h2 _ hs
  have rf : reals f.source = ![-M, 0, 0] := by
    funext i; fin_cases i
    · show (-m).val?.getD 0 = -M
      rw [hv']; rfl
    · rfl
    · rfl
  have rf' : reals f.target = ![M, 0, 0] := by funext i; fin_cases i <;> rfl
  have rg : reals g.source = ![0, -M, 0] := by
    funext i; fin_cases i
    · rfl
    · show (-m).val?.getD 0 = -M
      rw [hv']; rfl
    · rfl
  have rg' : reals g.target = ![0, M, 0] := by funext i; fin_cases i <;> rfl
  have hres : intersectSegment3 f g e = some (vadd f.source (vscale (vsub f.target f.source)
      ((dot (vsub f.target f.source) (vsub g.target g.source) * dot (vsub g.target g.source) (vsub f.source g.source)
      - dot (vsub g.target g.source) (vsub g.target g.source) * dot (vsub f.target f.source) (vsub f.source g.source)) / inf false))) := by
    unfold intersectSegment3 closestPointOnLineParameters
    simp only
    rw [hden, if_neg (by rw [h1]; simp)]
    simp only
    rw [t1, t2, s1, s2]
    rfl
  have hval : ∀ i, (vadd f.source (vscale (vsub f.target f.source)
      ((dot (vsub f.target f.source) (vsub g.target g.source) * dot (vsub g.target g.source) (vsub f.source g.source)
      - dot (vsub g.target g.source) (vsub g.target g.source) * dot (vsub f.target f.source) (vsub f.source g.source)) / inf false)) i).val?
        = some ((![-M, 0, 0] : Fin 3 → ℝ) i) := by
    intro i
    have hz := mul_simple (vf i) ht (mul_zero _) S0
    fin_cases i
    · exact add_simple hv' hz (add_zero _) (SN _ hlt)
    · exact add_simple h0 hz (add_zero _) S0
    · exact add_simple h0 hz (add_zero _) S0
  have A0 : AtMost n (0 : Ieee F) := ⟨0, h0, by rw [abs_zero]; positivity⟩
  have A1 : AtMost n m := ⟨M, hv, by rw [abs_of_pos hM0]⟩
  have A2 : AtMost n (-m) := ⟨-M, hv', by rw [abs_neg, abs_of_pos hM0]⟩
  refine ⟨f, g, M, _, rfl, ?_, rf, rf', rg, rg', ?_, hres, fun i => ⟨_, hval i⟩, ?_⟩
  · intro i; fin_cases i
    · exact ⟨A2, A1, A0, A0⟩
    · exact ⟨A0, A0, A2, A1⟩
    · exact ⟨A0, A0, A0, A0⟩
  · rw [rf, rf', rg, rg']
    ext p
    constructor
    · rintro ⟨⟨t, -, -, ht⟩, ⟨s, -, -, hs⟩⟩
      show p = 0
      funext i
      fin_cases i
      · have := congrFun hs 0; simpa using this
      · have := congrFun ht 1; simpa using this
      · have := congrFun ht 2; simpa using this
    · rintro rfl
      refine ⟨⟨1 / 2, by norm_num, by norm_num, ?_⟩, ⟨1 / 2, by norm_num, by norm_num, ?_⟩⟩
      · funext i; fin_cases i <;> (simp; try ring)
      · funext i; fin_cases i <;> (simp; try ring)
  · funext i
    exact congrArg (Option.getD · 0) (hval i)
end Ieee

section Examples
open Ieee
attribute [local instance] tolIe

/-- The segments from (0, 0, 0) to (6, 8, 0) and from (7, 1, 0) to (-1, 7, 0), as doubles. -/
noncomputable def segIe : Segment (Ieee double64) 3 := ⟨q64 0 0 0, q64 6 8 0⟩
noncomputable def cutIe : Segment (Ieee double64) 3 := ⟨q64 7 1 0, q64 (-1) 7 0⟩
noncomputable def rayIe : Ray (Ieee double64) 3 := ⟨q64 7 1 0, q64 (-8) 6 0⟩

theorem segIe_source : reals segIe.source = (![0, 0, 0] : Vec ℝ 3) := (q64_vals 0 0 0 (by norm_num) (by norm_num) (by norm_num)).trans (by push_cast; rfl)
theorem segIe_target : reals segIe.target = (![6, 8, 0] : Vec ℝ 3) := (q64_vals 6 8 0 (by norm_num) (by norm_num) (by norm_num)).trans (by push_cast; rfl)
theorem cutIe_source : reals cutIe.source = (![7, 1, 0] : Vec ℝ 3) := (q64_vals 7 1 0 (by norm_num) (by norm_num) (by norm_num)).trans (by push_cast; rfl)
theorem cutIe_target : reals cutIe.target = (![-1, 7, 0] : Vec ℝ 3) := (q64_vals (-1) 7 0 (by norm_num) (by norm_num) (by norm_num)).trans (by push_cast; rfl)
theorem rayIe_dir : reals rayIe.direction = (![-8, 6, 0] : Vec ℝ 3) := (q64_vals (-8) 6 0 (by norm_num) (by norm_num) (by norm_num)).trans (by push_cast; rfl)
theorem segIe_dir : (fun i => reals segIe.target i - reals segIe.source i) = (![6, 8, 0] : Vec ℝ 3) := by
  rw [segIe_source, segIe_target]
  funext i; fin_cases i <;> simp
theorem cutIe_dir : (fun i => reals cutIe.target i - reals cutIe.source i) = (![-8, 6, 0] : Vec ℝ 3) := by
  rw [cutIe_source, cutIe_target]
  funext i; fin_cases i <;> (simp; try norm_num)
theorem segIe_most (i : Fin 3) : AtMost 60 (segIe.source i) ∧ AtMost 60 (segIe.target i) := ⟨q64_most _ (by norm_num) _ _ _ _ _ _ i, q64_most _ (by norm_num) _ _ _ _ _ _ i⟩
theorem cutIe_most (i : Fin 3) : AtMost 60 (cutIe.source i) ∧ AtMost 60 (cutIe.target i) := ⟨q64_most _ (by norm_num) _ _ _ _ _ _ i, q64_most _ (by norm_num) _ _ _ _ _ _ i⟩
theorem rayIe_most (i : Fin 3) : AtMost 60 (rayIe.origin i) ∧ AtMost 60 (rayIe.direction i) := ⟨q64_most _ (by norm_num) _ _ _ _ _ _ i, q64_most _ (by norm_num) _ _ _ _ _ _ i⟩

theorem crossIe3 : Spec.Transversal double64.prec double64.emin 1 (1 / 16) 8 (reals segIe.source) (fun i => reals segIe.target i - reals segIe.source i)
      (reals cutIe.source) (fun i => reals cutIe.target i - reals cutIe.source i) := by
  have h := cross64
  rw [seg64_dir, cut64_dir, seg64_source, cut64_source] at h
  rw [segIe_dir, cutIe_dir, segIe_source, cutIe_source]
  exact h

/-- These segments are reported to meet, near (3, 4, 0). -/
example : ∃ q, intersectSegment3 segIe cutIe = some q ∧ (∀ i, ∃ r, (q i).val? = some r) ∧ Spec.dist (reals q) ![3, 4, 0] ≤ 1 / 10 ^ 12 := by
  obtain ⟨q, h1, h2, h3⟩ := C150_common_point_partial (F := double64) 60 (by show 4 * 60 + 11 < 1024; norm_num) segIe cutIe Tol.eps segIe_most cutIe_most
    (by show 9 ≤ 53; norm_num) min64 (θ := 1 / 10 ^ 6) crossIe3 rfl
    (fun z x hz hx => by
      rw [segIe_dir, cutIe_dir, norm680, norm860] at hx
      refine dec_false ?_
      rintro ⟨y, hy, hy2⟩
      cases hz.symm.trans hy
      linarith) rfl (by norm_num)
    (fun z x hz hx1 hx2 => by
      constructor
      · refine dec_false ?_
        rintro ⟨y, w, hy, hw, hy2⟩
        cases hz.symm.trans hy
        cases hw
        change x < 0 - 1 / 10 ^ 6 at hy2
        linarith
      · refine dec_false ?_
        rintro ⟨y, w, hy, hw, hy2⟩
        cases hz.symm.trans hy
        cases hw
        change 1 + 1 / 10 ^ 6 < x at hy2
        linarith)
    (by rw [segIe_dir, norm680]; show 122 * ((2 : ℝ)⁻¹ ^ 53 / 1 ^ 2 * (8 / 1)) ≤ _; norm_num)
    (by rw [cutIe_dir, norm860]; show 122 * ((2 : ℝ)⁻¹ ^ 53 / 1 ^ 2 * (8 / 1)) ≤ _; norm_num) (x := ![3, 4, 0])
    (by
      rw [segIe_source, segIe_target]
      refine ⟨1 / 2, by norm_num, by norm_num, ?_⟩
      funext i; fin_cases i <;> (simp; try norm_num))
    (by
      rw [cutIe_source, cutIe_target]
      refine ⟨1 / 2, by norm_num, by norm_num, ?_⟩
      funext i; fin_cases i <;> (simp; try norm_num))
  refine ⟨q, h1, h2, h3.trans ?_⟩
  rw [show Spec.norm (![3, 4, 0] : Vec ℝ 3) = 5 from norm3 _ _ _ 5 (by norm_num) (by norm_num)]
  show (2 : ℝ)⁻¹ ^ 53 * 5 + 127 * ((2 : ℝ)⁻¹ ^ 53 / 1 ^ 2 * (8 / 1)) ≤ _
  norm_num

/-- Whatever is reported for them is finite. -/
example {q : Vec (Ieee double64) 3} (hq : intersectSegment3 segIe cutIe = some q) (i : Fin 3) : ∃ r, (q i).val? = some r := by
  obtain ⟨z1, z2, z3⟩ := tolIe_facts
  exact (C150_segment_partial (F := double64) 60 20 (by show 4 * 60 + 20 + 11 < 1024; norm_num) segIe cutIe Tol.eps segIe_most cutIe_most
    (by show 9 ≤ 53; norm_num) min64 crossIe3 rfl (by norm_num) z1 z2 z3 hq).1 i

/-- The same for the ray. -/
example {q : Vec (Ieee double64) 3} (hq : intersectSegmentRay segIe rayIe = some q) (i : Fin 3) : ∃ r, (q i).val? = some r := by
  obtain ⟨z1, z2, z3⟩ := tolIe_facts
  have h := crossIe3
  rw [cutIe_dir, ← rayIe_dir] at h
  exact (C150_ray_partial (F := double64) 60 20 (by show 5 * 60 + 20 + 13 < 1024; norm_num) segIe rayIe Tol.eps segIe_most rayIe_most
    (by show 9 ≤ 53; norm_num) min64 h rfl z1 z2 z3 hq).1 i

/-- Segments of doubles meeting in the origin, reported to meet elsewhere. -/
example : ∃ (f g : Segment (Ieee double64) 3) (q : Vec (Ieee double64) 3), reals f.target = ![2 ^ 255, 0, 0] ∧ intersectSegment3 f g = some q ∧ reals q = ![-2 ^ 255, 0, 0] := by
  obtain ⟨f, g, M, q, rfl, -, -, h1, -, -, -, h2, -, h3⟩ := C150_counterexample (F := double64) Tol.eps 255 rfl
    (dec_false (by rintro ⟨x, h, -⟩; cases h)) (fun z hz => ⟨dec_false (by
      rintro ⟨y, w, hy, hw, hy2⟩
      cases hz.symm.trans hy
      cases hw
      change (0 : ℝ) < 0 - 1 / 10 ^ 6 at hy2
      norm_num at hy2), dec_false (by
      rintro ⟨y, w, hy, hw, hy2⟩
      cases hz.symm.trans hy
      cases hw
      change (1 : ℝ) + 1 / 10 ^ 6 < 0 at hy2
      norm_num at hy2)⟩)
  exact ⟨f, g, q, h1, h2, h3⟩
end Examples
end Verif
