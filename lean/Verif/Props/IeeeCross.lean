import Verif.Props.FloatSweep
import Verif.Props.IeeeFinite

set_option linter.unusedSectionVars false

/-
C149: intersections of segments of the plane and the sweep in IEEE arithmetic, with overflow.
-/
namespace Verif
open Spec
namespace Ieee
variable {F : IeeeFormat}

theorem det_near {k : ℕ} {a b c d : Ieee F} {x y z w : Fl F.toFloatFormat} (ha : Near (k + 1) a x) (hb : Near (k + 1) b y)
    (hc : Near (k + 1) c z) (hd : Near (k + 1) d w) (hk : 2 * k + 3 < F.emax) : Near (2 * k + 3) (a * b - c * d) (x * y - z * w) :=
  ((ha.mul hb (by omega)).sub (hc.mul hd (by omega)) (by omega)).mono (by omega)

/-- A tolerance for the numbers without a largest exponent, from three sets. -/
@[reducible] noncomputable def tolOf {F : FloatFormat} (z l g : Fl F → Prop) : Tol (Fl F) :=
  haveI := Classical.propDecidable
  { eps := 0, isLess := fun x _ _ => decide (l x), isLessEq := fun _ _ _ => false, isGreaterEq := fun _ _ _ => false, isEq := fun _ _ _ => false,
    isZero := fun x _ => decide (z x), isGreater := fun x _ _ => decide (g x) }

/-- **C149** Where two segments cross, in IEEE arithmetic: C97 holds for coordinates up to `2 ^ k`, `2 k + 4 < emax`; nothing overflows. -/
theorem C149_accuracy_partial [Tol (Ieee F)] [DecidableEq (Ieee F)] (k : ℕ) (hk : 2 * k + 4 < F.emax) (first second : Segment (Ieee F) 2) (eps : Ieee F)
    (hf : ∀ i, AtMost k (first.source i) ∧ AtMost k (first.target i)) (hs : ∀ i, AtMost k (second.source i) ∧ AtMost k (second.target i))
    (hp : 10 ≤ F.prec) {L A Δ : ℝ} {a b c d q : Vec ℝ 2}
    (ha : a = reals first.source) (hb : b = reals first.target) (hc : c = reals second.source) (hd : d = reals second.target)
    (hL1 : ∀ i, |b i - a i| ≤ L) (hL2 : ∀ i, |d i - c i| ≤ L) (hL3 : ∀ i, |c i - a i| ≤ L)
    (hL0 : 0 < L) (hA : ∀ i, |a i| ≤ A) (hΔ : Δ = (b 0 - a 0) * (d 1 - c 1) - (d 0 - c 0) * (b 1 - a 1))
    (hbig : 72 * (2 : ℝ)⁻¹ ^ F.prec * L ^ 2 ≤ |Δ|)
    (hsmall : ∀ k, F.emin = some k → k ≤ -2 * (F.prec : ℤ) ∧ (2 : ℝ) ^ ((k + 1) / 2) ≤ (2 : ℝ)⁻¹ ^ F.prec * L)
    (h1 : q ∈ Spec.segment a b) (h2 : q ∈ Spec.segment c d)
    (hz : ∀ (z : Ieee F) x, z.val? = some x → |Δ| / 2 ≤ |x| → Tol.isZero z eps = false)
    (ht : ∀ (z : Ieee F) x, z.val? = some x → -(40 * (2 : ℝ)⁻¹ ^ F.prec * (L ^ 2 / |Δ|)) ≤ x → x ≤ 1 + 40 * (2 : ℝ)⁻¹ ^ F.prec * (L ^ 2 / |Δ|) →
      Tol.isLess z 0 eps = false ∧ Tol.isGreater z 1 eps = false) :
    ∃ p, intersectSegment2 false first second eps = .ok (some p) ∧ (∀ i, ∃ r, (p i).val? = some r) ∧
      ∀ i, |reals p i - q i| ≤ (2 : ℝ)⁻¹ ^ F.prec * (50 * L ^ 3 / |Δ| + A) := by
  have na : NearVec k first.source (flOf first.source) := fun i => (hf i).1.near
  have nb : NearVec k first.target (flOf first.target) := fun i => (hf i).2.near
  have nc : NearVec k second.source (flOf second.source) := fun i => (hs i).1.near
  have nd : NearVec k second.target (flOf second.target) := fun i => (hs i).2.near
  rw [na.reals] at ha
  rw [nb.reals] at hb
  rw [nc.reals] at hc
  rw [nd.reals] at hd
  have hΔ0 : 0 < |Δ| := lt_of_lt_of_le (by positivity) hbig
  set e := 40 * (2 : ℝ)⁻¹ ^ F.prec * (L ^ 2 / |Δ|) with he
  have he1 : e ≤ 1 := by
    rw [he, ← mul_div_assoc, div_le_one hΔ0]
    have : 0 ≤ (2 : ℝ)⁻¹ ^ F.prec * L ^ 2 := by positivity
    linarith
  let tol : Tol (Fl F.toFloatFormat) := tolOf (fun x => |x.1| < |Δ| / 2) (fun x => x.1 < -e) (fun x => 1 + e < x.1)
  obtain ⟨p, hp1, hp2⟩ := C97_accuracy ⟨flOf first.source, flOf first.target⟩ ⟨flOf second.source, flOf second.target⟩ (0 : Fl F.toFloatFormat) hp
    ha hb hc hd hL1 hL2 hL3 hL0 hA hΔ hbig hsmall h1 h2 (fun x hx => by
      show decide (|x.1| < |Δ| / 2) = false
      exact decide_eq_false (not_lt.2 hx)) (fun x hx1 hx2 => by
      constructor
      · show decide (x.1 < -e) = false
        exact decide_eq_false (not_lt.2 hx1)
      · show decide (1 + e < x.1) = false
        exact decide_eq_false (not_lt.2 hx2))
  have nf := nb.vsub na (by omega)
  have ng := nd.vsub nc (by omega)
  have nh := nc.vsub na (by omega)
  have m1 := det_near (nf 0) (ng 1) (ng 0) (nf 1) (by omega)
  have m2 := det_near (nh 0) (ng 1) (nh 1) (ng 0) (by omega)
  have m3 := det_near (nf 0) (nh 1).neg (nf 1) (nh 0).neg (by omega)
  unfold intersectSegment2 at hp1
  simp only at hp1
  split_ifs at hp1 with c1 c2
  · simp only [reduceCtorEq, Except.ok.injEq] at hp1
  · simp only [reduceCtorEq, Except.ok.injEq] at hp1
  replace c1 := not_lt.1 fun hc => c1 (decide_eq_true hc)
  simp only [Bool.or_eq_true, not_or] at c2
  obtain ⟨⟨⟨c2, c3⟩, c4⟩, c5⟩ := c2
  replace c2 := not_lt.1 fun hc => c2 (decide_eq_true hc)
  replace c3 := not_lt.1 fun hc => c3 (decide_eq_true hc)
  replace c4 := not_lt.1 fun hc => c4 (decide_eq_true hc)
  replace c5 := not_lt.1 fun hc => c5 (decide_eq_true hc)
  have hd0 : (vsub (flOf first.target) (flOf first.source) 0 * vsub (flOf second.target) (flOf second.source) 1 -
      vsub (flOf second.target) (flOf second.source) 0 * vsub (flOf first.target) (flOf first.source) 1).1 ≠ 0 := by
    intro h0
    rw [h0, abs_zero] at c1
    linarith
  have mt := m2.div' (m := 1) m1 hd0 (by rw [pow_one, abs_le]; constructor <;> linarith) (by omega)
  have ms := m3.div' (m := 1) m1 hd0 (by rw [pow_one, abs_le]; constructor <;> linarith) (by omega)
  have mp := (na.mono (by omega : k ≤ k + 1 + 1)).vadd (nf.vscale mt (by omega)) (by omega)
  change Except.ok (some (vadd _ _)) = Except.ok (some p) at hp1
  have hp3 := Option.some.inj (Except.ok.inj hp1)
  rw [hp3] at mp
  obtain ⟨t1, t2⟩ := ht _ _ mt.val (by linarith) (by linarith)
  obtain ⟨s1, s2⟩ := ht _ _ ms.val (by linarith) (by linarith)
  refine ⟨_, ?_, fun i => ⟨_, (mp i).val⟩, fun i => ?_⟩
  · unfold intersectSegment2
    simp only
    rw [if_neg (by rw [hz _ _ m1.val c1]; simp), t1, t2, s1, s2]
    rfl
  · rw [mp.reals]; exact hp2 i

/-- **C149** What a point reported in IEEE arithmetic is: C147 holds for coordinates up to `2 ^ k`, if the tolerance takes determinants
below `2 ^ -j` for zero and `2 k + j + 4 < emax`; the reported point is finite. -/
theorem C149_point_partial [Tol (Ieee F)] [DecidableEq (Ieee F)] (k j : ℕ) (hk : 2 * k + j + 4 < F.emax) (first second : Segment (Ieee F) 2) (eps : Ieee F)
    (hf : ∀ i, AtMost k (first.source i) ∧ AtMost k (first.target i)) (hs : ∀ i, AtMost k (second.source i) ∧ AtMost k (second.target i))
    (hp : 10 ≤ F.prec) {L A Δ θ : ℝ} {a b c d : Vec ℝ 2}
    (ha : a = reals first.source) (hb : b = reals first.target) (hc : c = reals second.source) (hd : d = reals second.target)
    (hL1 : ∀ i, |b i - a i| ≤ L) (hL2 : ∀ i, |d i - c i| ≤ L) (hL3 : ∀ i, |c i - a i| ≤ L)
    (hL0 : 0 < L) (hA : ∀ i, |a i| ≤ A) (hΔ : Δ = (b 0 - a 0) * (d 1 - c 1) - (d 0 - c 0) * (b 1 - a 1))
    (hbig : 72 * (2 : ℝ)⁻¹ ^ F.prec * L ^ 2 ≤ |Δ|)
    (hsmall : ∀ k, F.emin = some k → k ≤ -2 * (F.prec : ℤ) ∧ (2 : ℝ) ^ ((k + 1) / 2) ≤ (2 : ℝ)⁻¹ ^ F.prec * L)
    (hθ : θ ≤ 1) (hz : ∀ (z : Ieee F) x, z.val? = some x → |x| * 2 ^ j < 1 → Tol.isZero z eps = true)
    (hl : ∀ (z : Ieee F) x, z.val? = some x → x < -θ → Tol.isLess z 0 eps = true)
    (hg : ∀ (z : Ieee F) x, z.val? = some x → 1 + θ < x → Tol.isGreater z 1 eps = true)
    {p : Vec (Ieee F) 2} (h : intersectSegment2 false first second eps = .ok (some p)) :
    (∀ i, ∃ r, (p i).val? = some r) ∧ ∃ q, q ∈ Spec.segmentUpTo (θ + 40 * (2 : ℝ)⁻¹ ^ F.prec * (L ^ 2 / |Δ|)) a b ∧
      q ∈ Spec.segmentUpTo (θ + 40 * (2 : ℝ)⁻¹ ^ F.prec * (L ^ 2 / |Δ|)) c d ∧
      ∀ i, |reals p i - q i| ≤ (2 : ℝ)⁻¹ ^ F.prec * (64 * L ^ 3 / |Δ| + A) := by
  have na : NearVec k first.source (flOf first.source) := fun i => (hf i).1.near
  have nb : NearVec k first.target (flOf first.target) := fun i => (hf i).2.near
  have nc : NearVec k second.source (flOf second.source) := fun i => (hs i).1.near
  have nd : NearVec k second.target (flOf second.target) := fun i => (hs i).2.near
  rw [na.reals] at ha
  rw [nb.reals] at hb
  rw [nc.reals] at hc
  rw [nd.reals] at hd
  have nf := nb.vsub na (by omega)
  have ng := nd.vsub nc (by omega)
  have nh := nc.vsub na (by omega)
  have m1 := det_near (nf 0) (ng 1) (ng 0) (nf 1) (by omega)
  have m2 := det_near (nh 0) (ng 1) (nh 1) (ng 0) (by omega)
  have m3 := det_near (nf 0) (nh 1).neg (nf 1) (nh 0).neg (by omega)
  unfold intersectSegment2 at h
  simp only at h
  split_ifs at h with c1 c2
  · simp only [reduceCtorEq, Except.ok.injEq] at h
  · simp only [reduceCtorEq, Except.ok.injEq] at h
  simp only [Bool.or_eq_true, not_or] at c2
  obtain ⟨⟨⟨c2, c3⟩, c4⟩, c5⟩ := c2
  have hd1 : 1 ≤ |(vsub (flOf first.target) (flOf first.source) 0 * vsub (flOf second.target) (flOf second.source) 1 -
      vsub (flOf second.target) (flOf second.source) 0 * vsub (flOf first.target) (flOf first.source) 1).1| * 2 ^ j :=
    not_lt.1 fun hc => c1 (hz _ _ m1.val hc)
  have mt := m2.div m1 hd1 (by omega)
  have ms := m3.div m1 hd1 (by omega)
  have s1 := not_lt.1 fun hc => c2 (hl _ _ ms.val hc)
  have s2 := not_lt.1 fun hc => c3 (hg _ _ ms.val hc)
  have t1 := not_lt.1 fun hc => c4 (hl _ _ mt.val hc)
  have t2 := not_lt.1 fun hc => c5 (hg _ _ mt.val hc)
  have mt' : Near 1 _ _ := ⟨mt.val, by rw [pow_one, abs_le]; constructor <;> linarith⟩
  have mp := (na.mono (by omega : k ≤ k + 1 + 1)).vadd (nf.vscale mt' (by omega)) (by omega)
  change Except.ok (some (vadd _ _)) = Except.ok (some p) at h
  have hp3 := Option.some.inj (Except.ok.inj h)
  rw [hp3] at mp
  let tol : Tol (Fl F.toFloatFormat) := tolOf (fun x => x.1 < x.1) (fun x => x.1 < -θ) (fun x => 1 + θ < x.1)
  obtain ⟨q, q1, q2, q3⟩ := C147_point false ⟨flOf first.source, flOf first.target⟩ ⟨flOf second.source, flOf second.target⟩ (0 : Fl F.toFloatFormat) hp
    ha hb hc hd hL1 hL2 hL3 hL0 hA hΔ hbig hsmall hθ (fun x hx => decide_eq_true hx) (fun x hx => decide_eq_true hx)
    (p := vadd (flOf first.source) (vscale (vsub (flOf first.target) (flOf first.source)) _)) (by
      unfold intersectSegment2
      simp only
      rw [if_neg (by intro h0; exact lt_irrefl _ (of_decide_eq_true h0)), if_neg (by
        simp only [Bool.or_eq_true, not_or]
        exact ⟨⟨⟨fun hc => not_lt.2 s1 (of_decide_eq_true hc), fun hc => not_lt.2 s2 (of_decide_eq_true hc)⟩,
          fun hc => not_lt.2 t1 (of_decide_eq_true hc)⟩, fun hc => not_lt.2 t2 (of_decide_eq_true hc)⟩)]
      rfl)
  exact ⟨fun i => ⟨_, (mp i).val⟩, q, q1, q2, fun i => by rw [mp.reals]; exact q3 i⟩

/-- **C149** The sweep in IEEE arithmetic (release build): C147 holds for coordinates up to `2 ^ k`, and all reported points are finite
where the determinant is large enough. -/
theorem C149_sweep_partial [Tol (Ieee F)] [DecidableEq (Ieee F)] (k j : ℕ) (hk : 2 * k + j + 4 < F.emax) (o : StatusSearch) (segs : List (Segment (Ieee F) 2))
    (es : List (BOEvent (Ieee F))) (hes : es.Perm (boEvents segs)) (hp : 10 ≤ F.prec) {θ : ℝ}
    (hM : ∀ s ∈ segs, ∀ i, AtMost k (s.source i) ∧ AtMost k (s.target i))
    (hsmall : ∀ e, F.emin = some e → e ≤ -2 * (F.prec : ℤ) ∧ (2 : ℝ) ^ ((e + 1) / 2) ≤ (2 : ℝ)⁻¹ ^ F.prec * 2 ^ k)
    (hθ : θ ≤ 1) (hz : ∀ (z : Ieee F) x, z.val? = some x → |x| * 2 ^ j < 1 → Tol.isZero z Tol.eps = true)
    (hl : ∀ (z : Ieee F) x, z.val? = some x → x < -θ → Tol.isLess z 0 Tol.eps = true)
    (hg : ∀ (z : Ieee F) x, z.val? = some x → 1 + θ < x → Tol.isGreater z 1 Tol.eps = true) :
    ∃ pts, bentleyOttmann false o segs es = .ok pts ∧ pts.length ≤ 3 * segs.length ∧ ∀ p ∈ pts, ∃ (a b : Nat) (s t : Segment (Ieee F) 2), a ≠ b ∧
      segs[a]? = some s ∧ segs[b]? = some t ∧
      ∀ Δ, Δ = (reals s.target 0 - reals s.source 0) * (reals t.target 1 - reals t.source 1)
          - (reals t.target 0 - reals t.source 0) * (reals s.target 1 - reals s.source 1) →
        288 * (2 : ℝ)⁻¹ ^ F.prec * (2 ^ k) ^ 2 ≤ |Δ| →
        (∀ i, ∃ r, (p i).val? = some r) ∧
        ∃ q, q ∈ Spec.segmentUpTo (θ + 160 * (2 : ℝ)⁻¹ ^ F.prec * ((2 ^ k) ^ 2 / |Δ|)) (reals s.source) (reals s.target) ∧
          q ∈ Spec.segmentUpTo (θ + 160 * (2 : ℝ)⁻¹ ^ F.prec * ((2 ^ k) ^ 2 / |Δ|)) (reals t.source) (reals t.target) ∧
          ∀ i, |reals p i - q i| ≤ (2 : ℝ)⁻¹ ^ F.prec * (512 * (2 ^ k) ^ 3 / |Δ| + 2 ^ k) := by
  obtain ⟨pts, h1, h2, h3⟩ := C147_release o segs es hes
  refine ⟨pts, h1, h2, fun p hpm => ?_⟩
  obtain ⟨a, b, s, t, hab, hi, hj, hint⟩ := h3 p hpm
  refine ⟨a, b, s, t, hab, hi, hj, fun Δ hΔ hbig => ?_⟩
  have mi := hM s (List.mem_of_getElem? hi)
  have mj := hM t (List.mem_of_getElem? hj)
  have hM0 : (0 : ℝ) < 2 ^ k := by positivity
  have most : ∀ {v : Vec (Ieee F) 2} {i}, AtMost k (v i) → |reals v i| ≤ 2 ^ k := fun {v i} ⟨r, h4, h5⟩ => by
    show |(v i).val?.getD 0| ≤ _
    rw [h4]; exact h5
  have hdiff : ∀ {v w : Vec (Ieee F) 2} {i}, AtMost k (v i) → AtMost k (w i) → |reals v i - reals w i| ≤ 2 * 2 ^ k :=
    fun hx hy => (abs_sub _ _).trans (by linarith [most hx, most hy])
  obtain ⟨hfin, q, q1, q2, q3⟩ := C149_point_partial k j hk s t Tol.eps mi mj hp (L := 2 * 2 ^ k) (A := 2 ^ k) (θ := θ) rfl rfl rfl rfl
    (fun i => hdiff (mi i).2 (mi i).1) (fun i => hdiff (mj i).2 (mj i).1) (fun i => hdiff (mj i).1 (mi i).1) (by linarith) (fun i => most (mi i).1) hΔ (by
      refine le_trans (le_of_eq ?_) hbig; ring)
    (fun e he => by
      obtain ⟨k1, k2⟩ := hsmall e he
      refine ⟨k1, k2.trans (mul_le_mul_of_nonneg_left (by linarith) (by positivity))⟩) hθ hz hl hg hint
  have e1 : 40 * (2 : ℝ)⁻¹ ^ F.prec * ((2 * 2 ^ k) ^ 2 / |Δ|) = 160 * (2 : ℝ)⁻¹ ^ F.prec * ((2 ^ k) ^ 2 / |Δ|) := by ring
  have e2 : 64 * (2 * (2 : ℝ) ^ k) ^ 3 / |Δ| = 512 * (2 ^ k) ^ 3 / |Δ| := by ring
  rw [e1] at q1 q2
  rw [e2] at q3
  exact ⟨hfin, q, q1, q2, q3⟩

/-- Zero or a power of two, up to the sign, that does not overflow. -/
def Simple (F : IeeeFormat) (x : ℝ) : Prop := x = 0 ∨ ∃ i < F.emax, x = 2 ^ i ∨ x = -2 ^ i

theorem Simple.rep {x : ℝ} (h : Simple F x) : Representable F.prec F.emin x ∧ |x| < 2 ^ F.emax := by
  rcases h with rfl | ⟨i, hi, rfl | rfl⟩
  · exact ⟨(0 : Fl F.toFloatFormat).2, by rw [abs_zero]; positivity⟩
  · exact ⟨pow_mem _ _, by rw [abs_of_pos (by positivity)]; exact pow_lt_pow' hi⟩
  · exact ⟨(pow_mem _ _).neg, by rw [abs_neg, abs_of_pos (by positivity)]; exact pow_lt_pow' hi⟩

theorem add_simple {a b : Ieee F} {x y z : ℝ} (ha : a.val? = some x) (hb : b.val? = some y) (hz : x + y = z) (h : Simple F z) : (a + b).val? = some z := by
  obtain ⟨s, hs⟩ := add_def ha hb
  rw [hs, hz]
  exact ofReal_val h.rep.1 h.rep.2

theorem sub_simple {a b : Ieee F} {x y z : ℝ} (ha : a.val? = some x) (hb : b.val? = some y) (hz : x - y = z) (h : Simple F z) : (a - b).val? = some z := by
  subst hz
  exact sub_exact ha hb h.rep.1 h.rep.2

theorem mul_simple {a b : Ieee F} {x y z : ℝ} (ha : a.val? = some x) (hb : b.val? = some y) (hz : x * y = z) (h : Simple F z) : (a * b).val? = some z := by
  subst hz
  exact mul_exact ha hb h.rep.1 h.rep.2

/-- A product of finite numbers that overflows. -/
theorem mul_over {a b : Ieee F} {x y : ℝ} {n : ℕ} (ha : a.val? = some x) (hb : b.val? = some y) (hn : F.emax ≤ n)
    (h : x * y = 2 ^ n ∨ x * y = -2 ^ n) : a * b = inf (@decide (x * y < 0) (Classical.propDecidable _)) := by
  obtain ⟨s, hs⟩ := mul_def ha hb
  have hr : F.rnd (x * y) = x * y := F.rounds.exact (by
    rcases h with h | h
    · rw [h]; exact pow_mem _ _
    · rw [h]; exact (pow_mem _ _).neg)
  have hbig : (2 : ℝ) ^ F.emax ≤ |x * y| := by
    have : (2 : ℝ) ^ F.emax ≤ 2 ^ n := pow_le_pow_right₀ (by norm_num) hn
    have h0 : (0 : ℝ) < 2 ^ n := by positivity
    rcases h with h | h <;> rw [h]
    · rwa [abs_of_pos h0]
    · rwa [abs_neg, abs_of_pos h0]
  rw [hs]
  rcases ofReal_cases (F := F) s (x * y) with ⟨q, h2, h3⟩ | ⟨h1, -, -⟩
  · exfalso
    rw [h3, hr] at h2
    exact absurd (val_mem h2).2 (not_lt.2 hbig)
  · rw [h1, hr]

theorem inf_minus {a : Ieee F} {x : ℝ} (ha : a.val? = some x) : inf false - a = inf false := by
  have h := neg_val ha
  show inf false + -a = inf false
  generalize -a = b at h
  cases b <;> simp only [val?, reduceCtorEq] at h <;> rfl

theorem minus_ninf {a : Ieee F} {x : ℝ} (ha : a.val? = some x) : a - inf true = inf false := by
  cases a <;> simp only [val?, reduceCtorEq] at ha <;> rfl

/-- **C149** The bound on the coordinates is needed: the segments from `(0, 0)` to `(M, M)` and from `(M, 0)` to `(0, M)`, with
`M = 2 ^ (emax - 1)`, cross in `(M / 2, M / 2)`, and the reported point is NaN (for every tolerance for which infinity is not zero and
comparisons with NaN are false). -/
theorem C149_counterexample [Tol (Ieee F)] [DecidableEq (Ieee F)] (eps : Ieee F) (h1 : Tol.isZero (inf false : Ieee F) eps = false)
    (h2 : Tol.isLess (nan : Ieee F) 0 eps = false) (h3 : Tol.isGreater (nan : Ieee F) 1 eps = false) :
    ∃ (first second : Segment (Ieee F) 2) (M : ℝ), M = 2 ^ (F.emax - 1) ∧
      reals first.source = ![0, 0] ∧ reals first.target = ![M, M] ∧ reals second.source = ![M, 0] ∧ reals second.target = ![0, M] ∧
      (∀ i, (∃ r, (first.source i).val? = some r) ∧ (∃ r, (first.target i).val? = some r) ∧ (∃ r, (second.source i).val? = some r) ∧ ∃ r, (second.target i).val? = some r) ∧
      Spec.segment (reals first.source) (reals first.target) ∩ Spec.segment (reals second.source) (reals second.target) = {![M / 2, M / 2]} ∧
      intersectSegment2 false first second eps = .ok (some fun _ => nan) := by
  have hF := F.one_lt_emax
  have hn : F.emax - 1 < F.emax := by omega
  set m := pow2 F (F.emax - 1) hn with hm
  set M : ℝ := 2 ^ (F.emax - 1) with hM
  have hM0 : 0 < M := by positivity
  have hv : m.val? = some M := pow2_val _ _
  have hMlt : |M| < 2 ^ F.emax := (val_mem hv).2
  have hMr : Representable F.prec F.emin M := pow_mem _ _
  have h0 : (0 : Ieee F).val? = some 0 := rfl
  have d1 : (m - 0).val? = some M := by
    have := sub_exact hv h0 (by rwa [sub_zero]) (by rwa [sub_zero])
    rwa [sub_zero] at this
  have d2 : ((0 : Ieee F) - m).val? = some (-M) := by
    have := sub_exact h0 hv (by rw [zero_sub]; exact hMr.neg) (by rwa [zero_sub, abs_neg])
    rwa [zero_sub] at this
  have d3 : ((0 : Ieee F) - 0).val? = some 0 := by
    have := sub_exact h0 h0 (by rw [sub_zero]; exact (0 : Fl F.toFloatFormat).2) (by rw [sub_zero, abs_zero]; positivity)
    rwa [sub_zero] at this
  have hMM : M * M = 2 ^ (F.emax - 1 + (F.emax - 1)) := by rw [hM, pow_add]
  have hle : F.emax ≤ F.emax - 1 + (F.emax - 1) := by omega
  have e1 : (m - 0) * (m - 0) = inf false := by
    rw [mul_over d1 d1 hle (.inl hMM), decide_eq_false (not_lt.2 (by positivity))]
  have e2 : (0 - m) * (m - 0) = inf true := by
    rw [mul_over d2 d1 hle (.inr (by rw [← hMM]; ring)), decide_eq_true (by nlinarith)]
  have e3 : (m - 0) * -(m - 0) = inf true := by
    rw [mul_over d1 (neg_val d1) hle (.inr (by rw [← hMM]; ring)), decide_eq_true (by nlinarith)]
  have hzero : Representable F.prec F.emin (0 : ℝ) := (0 : Fl F.toFloatFormat).2
  have e4 : ((0 : Ieee F) - 0) * (0 - m) = _ := rfl
  have z1 : (((0 : Ieee F) - 0) * (0 - m)).val? = some 0 := by
    have := mul_exact d3 d2 (by rwa [zero_mul]) (by rw [zero_mul, abs_zero]; positivity)
    rwa [zero_mul] at this
  have z2 : ((m - 0) * -((0 : Ieee F) - 0)).val? = some 0 := by
    have := mul_exact d1 (neg_val d3) (by rwa [neg_zero, mul_zero]) (by rw [neg_zero, mul_zero, abs_zero]; positivity)
    rwa [neg_zero, mul_zero] at this
  have hi : (inf false : Ieee F) - inf true = inf false := rfl
  have hdiv : (inf false : Ieee F) / inf false = nan := rfl
  have hnan : ∀ a : Ieee F, a * nan = nan := fun a => by cases a <;> rfl
  have hnan' : ∀ a : Ieee F, a + nan = nan := fun a => by cases a <;> rfl
  refine ⟨⟨![0, 0], ![m, m]⟩, ⟨![m, 0], ![0, m]⟩, M, rfl, ?_, ?_, ?_, ?_, ?_, ?_, ?_⟩
  · funext i; fin_cases i <;> rfl
  · funext i; fin_cases i <;> rfl
  · funext i; fin_cases i <;> rfl
  · funext i; fin_cases i <;> rfl
  · intro i; fin_cases i
    · exact ⟨⟨_, h0⟩, ⟨_, hv⟩, ⟨_, hv⟩, ⟨_, h0⟩⟩
    · exact ⟨⟨_, h0⟩, ⟨_, hv⟩, ⟨_, h0⟩, ⟨_, hv⟩⟩
  · have r1 : reals (![0, 0] : Vec (Ieee F) 2) = ![0, 0] := by funext i; fin_cases i <;> rfl
    have r2 : reals (![m, m] : Vec (Ieee F) 2) = ![M, M] := by funext i; fin_cases i <;> rfl
    have r3 : reals (![m, 0] : Vec (Ieee F) 2) = ![M, 0] := by funext i; fin_cases i <;> rfl
    have r4 : reals (![0, m] : Vec (Ieee F) 2) = ![0, M] := by funext i; fin_cases i <;> rfl
    simp only [r1, r2, r3, r4]
    ext p
    constructor
    · rintro ⟨⟨t, -, -, ht⟩, ⟨s, -, -, hs⟩⟩
      have q0 := congrFun (ht.symm.trans hs) 0
      have q1 := congrFun (ht.symm.trans hs) 1
      simp only [Matrix.cons_val_zero, Matrix.cons_val_one] at q0 q1
      show p = _
      rw [ht]
      funext i
      fin_cases i <;> (simp; linarith)
    · rintro rfl
      refine ⟨⟨1 / 2, by norm_num, by norm_num, ?_⟩, ⟨1 / 2, by norm_num, by norm_num, ?_⟩⟩
      · funext i; fin_cases i <;> (simp; try ring)
      · funext i; fin_cases i <;> (simp; try ring)
  · have hdet : (m - 0) * (m - 0) - (0 - m) * (m - 0) = inf false := by rw [e1, e2, hi]
    have ht : ((m - 0) * (m - 0) - (0 - 0) * (0 - m)) / inf false = nan := by rw [e1, inf_minus z1, hdiv]
    have hs : ((m - 0) * -(0 - 0) - (m - 0) * -(m - 0)) / inf false = nan := by rw [e3, minus_ninf z2, hdiv]
    have key : intersectSegment2 false (⟨![0, 0], ![m, m]⟩ : Segment (Ieee F) 2) ⟨![m, 0], ![0, m]⟩ eps =
        (if Tol.isZero ((m - 0) * (m - 0) - (0 - m) * (m - 0)) eps then .ok none
        else if Tol.isLess (((m - 0) * -(0 - 0) - (m - 0) * -(m - 0)) / ((m - 0) * (m - 0) - (0 - m) * (m - 0))) 0 eps ||
            Tol.isGreater (((m - 0) * -(0 - 0) - (m - 0) * -(m - 0)) / ((m - 0) * (m - 0) - (0 - m) * (m - 0))) 1 eps ||
            Tol.isLess (((m - 0) * (m - 0) - (0 - 0) * (0 - m)) / ((m - 0) * (m - 0) - (0 - m) * (m - 0))) 0 eps ||
            Tol.isGreater (((m - 0) * (m - 0) - (0 - 0) * (0 - m)) / ((m - 0) * (m - 0) - (0 - m) * (m - 0))) 1 eps then .ok none
        else .ok (some (vadd ![0, 0] (vscale (vsub ![m, m] ![0, 0]) (((m - 0) * (m - 0) - (0 - 0) * (0 - m)) / ((m - 0) * (m - 0) - (0 - m) * (m - 0))))))) := rfl
    rw [key, hdet, ht, hs, h1, h2, h3]
    show Except.ok (some (vadd ![0, 0] (vscale (vsub ![m, m] ![0, 0]) nan))) = _
    congr 2
    funext i
    show (![0, 0] : Vec (Ieee F) 2) i + vsub ![m, m] ![0, 0] i * nan = nan
    rw [hnan, hnan']

/-- **C149** A finite wrong point: with `M = 2 ^ n`, `emax = 2 n + 2` (`2 ^ 511` for double, `2 ^ 63` for float), the segments from `(-M, 0)` to
`(M, 0)` and from `(0, -M)` to `(0, M)` meet in the origin, but the point reported is `(-M, 0)`, the source of the first one. -/
theorem C149_wrong_counterexample [Tol (Ieee F)] [DecidableEq (Ieee F)] (e : Ieee F) (n : ℕ) (hn : F.emax = 2 * n + 2)
    (h1 : Tol.isZero (inf false : Ieee F) e = false)
    (h2 : ∀ z : Ieee F, z.val? = some 0 → Tol.isLess z 0 e = false ∧ Tol.isGreater z 1 e = false) :
    ∃ (f g : Segment (Ieee F) 2) (M : ℝ) (q : Vec (Ieee F) 2), M = 2 ^ n ∧
      (∀ i, AtMost n (f.source i) ∧ AtMost n (f.target i) ∧ AtMost n (g.source i) ∧ AtMost n (g.target i)) ∧
      reals f.source = ![-M, 0] ∧ reals f.target = ![M, 0] ∧ reals g.source = ![0, -M] ∧ reals g.target = ![0, M] ∧
      Spec.segment (reals f.source) (reals f.target) ∩ Spec.segment (reals g.source) (reals g.target) = {0} ∧
      intersectSegment2 false f g e = .ok (some q) ∧ (∀ i, ∃ r, (q i).val? = some r) ∧ reals q = ![-M, 0] := by
  have hlt : n < F.emax := by omega
  set m := pow2 F n hlt with hm
  set M : ℝ := 2 ^ n with hM
  have hM0 : 0 < M := by positivity
  have hv : m.val? = some M := pow2_val _ _
  have h0 : (0 : Ieee F).val? = some 0 := rfl
  have hv' : (-m).val? = some (-M) := neg_val hv
  have S0 : Simple F 0 := .inl rfl
  have SM : ∀ i, i < F.emax → Simple F (2 ^ i) := fun i hi => .inr ⟨i, hi, .inl rfl⟩
  have SN : ∀ i, i < F.emax → Simple F (-2 ^ i) := fun i hi => .inr ⟨i, hi, .inr rfl⟩
  have e2 : (2 : ℝ) ^ (n + 1) = 2 * M := by rw [pow_succ, ← hM]; ring
  have e3 : (2 : ℝ) ^ (2 * n + 1) = 2 * M * M := by rw [hM]; ring
  have e4 : (2 : ℝ) ^ (2 * n + 2) = 4 * M * M := by rw [hM]; ring
  have d0 : ((0 : Ieee F) - 0).val? = some 0 := sub_simple h0 h0 (sub_zero _) S0
  have d1 : (m - -m).val? = some (2 ^ (n + 1)) := sub_simple hv hv' (by rw [e2]; ring) (SM _ (by omega))
  have d2 : ((0 : Ieee F) - -m).val? = some M := sub_simple h0 hv' (by ring) (SM _ hlt)
  have d3 : (-m - 0).val? = some (-M) := sub_simple hv' h0 (sub_zero _) (SN _ hlt)
  have hdet : (m - -m) * (m - -m) - (0 - 0) * (0 - 0) = inf false := by
    rw [mul_over d1 d1 (n := 2 * n + 2) (by omega) (.inl (by rw [← pow_add]; congr 1; omega)), decide_eq_false (not_lt.2 (by positivity))]
    exact inf_minus (mul_simple d0 d0 (mul_zero _) S0)
  have ht : (((0 - -m) * (m - -m) - (-m - 0) * (0 - 0)) / inf false).val? = some 0 := by
    refine div_inf (r := 2 ^ (2 * n + 1)) (sub_simple (mul_simple (z := 2 ^ (2 * n + 1)) d2 d1 ?_ (SM _ (by omega))) (mul_simple d3 d0 (mul_zero _) S0) (sub_zero _) (SM _ (by omega))) false
    rw [e2, e3]; ring
  have hs : (((m - -m) * -(-m - 0) - (0 - 0) * -(0 - -m)) / inf false).val? = some 0 := by
    refine div_inf (r := 2 ^ (2 * n + 1)) (sub_simple (mul_simple (z := 2 ^ (2 * n + 1)) d1 (neg_val d3) ?_ (SM _ (by omega))) (mul_simple d0 (neg_val d2) (zero_mul _) S0) (sub_zero _) (SM _ (by omega))) false
    rw [e2, e3]; ring
  obtain ⟨t1, t2⟩ := h2 _ ht
  obtain ⟨s1, s2⟩ := h2 _ hs
  set f : Segment (Ieee F) 2 := ⟨![-m, 0], ![m, 0]⟩ with hf
  set g : Segment (Ieee F) 2 := ⟨![0, -m], ![0, m]⟩ with hg
  have rf : reals f.source = ![-M, 0] := by
    funext i; fin_cases i
    · show (-m).val?.getD 0 = -M
      rw [hv']; rfl
    · rfl
  have rf' : reals f.target = ![M, 0] := by funext i; fin_cases i <;> rfl
  have rg : reals g.source = ![0, -M] := by
    funext i; fin_cases i
    · rfl
    · show (-m).val?.getD 0 = -M
      rw [hv']; rfl
  have rg' : reals g.target = ![0, M] := by funext i; fin_cases i <;> rfl
  have key : intersectSegment2 false f g e =
      (if Tol.isZero ((m - -m) * (m - -m) - (0 - 0) * (0 - 0)) e then .ok none
      else if Tol.isLess (((m - -m) * -(-m - 0) - (0 - 0) * -(0 - -m)) / ((m - -m) * (m - -m) - (0 - 0) * (0 - 0))) 0 e ||
          Tol.isGreater (((m - -m) * -(-m - 0) - (0 - 0) * -(0 - -m)) / ((m - -m) * (m - -m) - (0 - 0) * (0 - 0))) 1 e ||
          Tol.isLess (((0 - -m) * (m - -m) - (-m - 0) * (0 - 0)) / ((m - -m) * (m - -m) - (0 - 0) * (0 - 0))) 0 e ||
          Tol.isGreater (((0 - -m) * (m - -m) - (-m - 0) * (0 - 0)) / ((m - -m) * (m - -m) - (0 - 0) * (0 - 0))) 1 e then .ok none
      else .ok (some (vadd f.source (vscale (vsub f.target f.source) (((0 - -m) * (m - -m) - (-m - 0) * (0 - 0)) / ((m - -m) * (m - -m) - (0 - 0) * (0 - 0))))))) := rfl
  rw [hdet, h1, t1, t2, s1, s2] at key
  have hval : ∀ i, (vadd f.source (vscale (vsub f.target f.source) (((0 - -m) * (m - -m) - (-m - 0) * (0 - 0)) / inf false)) i).val? = some ((![-M, 0] : Fin 2 → ℝ) i) := by
    intro i
    fin_cases i
    · exact add_simple hv' (mul_simple d1 ht (mul_zero _) S0) (add_zero _) (SN _ hlt)
    · exact add_simple h0 (mul_simple d0 ht (mul_zero _) S0) (add_zero _) S0
  have A0 : AtMost n (0 : Ieee F) := ⟨0, h0, by rw [abs_zero]; positivity⟩
  have A1 : AtMost n m := ⟨M, hv, by rw [abs_of_pos hM0]⟩
  have A2 : AtMost n (-m) := ⟨-M, hv', by rw [abs_neg, abs_of_pos hM0]⟩
  refine ⟨f, g, M, _, rfl, ?_, rf, rf', rg, rg', ?_, key, fun i => ⟨_, hval i⟩, ?_⟩
  · intro i; fin_cases i
    · exact ⟨A2, A1, A0, A0⟩
    · exact ⟨A0, A0, A2, A1⟩
  · rw [rf, rf', rg, rg']
    ext p
    constructor
    · rintro ⟨⟨t, -, -, ht⟩, ⟨s, -, -, hs⟩⟩
      show p = 0
      funext i
      fin_cases i
      · have := congrFun hs 0; simpa using this
      · have := congrFun ht 1; simpa using this
    · rintro rfl
      refine ⟨⟨1 / 2, by norm_num, by norm_num, ?_⟩, ⟨1 / 2, by norm_num, by norm_num, ?_⟩⟩
      · funext i; fin_cases i <;> (simp; try ring)
      · funext i; fin_cases i <;> (simp; try ring)
  · funext i
    exact congrArg (Option.getD · 0) (hval i)
end Ieee

section Examples
open Ieee

/-- A tolerance of `10⁻⁶` on finite numbers; comparisons with NaN and infinities are false. -/
@[reducible] noncomputable def tolIe : Tol (Ieee double64) :=
  haveI := Classical.propDecidable
  { eps := 0
    isLess := fun a b _ => decide (∃ x y, a.val? = some x ∧ b.val? = some y ∧ x < y - 1 / 10 ^ 6)
    isGreater := fun a b _ => decide (∃ x y, a.val? = some x ∧ b.val? = some y ∧ y + 1 / 10 ^ 6 < x)
    isLessEq := fun a b _ => decide (∃ x y, a.val? = some x ∧ b.val? = some y ∧ x ≤ y + 1 / 10 ^ 6)
    isGreaterEq := fun a b _ => decide (∃ x y, a.val? = some x ∧ b.val? = some y ∧ y - 1 / 10 ^ 6 ≤ x)
    isEq := fun a b _ => decide (∃ x y, a.val? = some x ∧ b.val? = some y ∧ |x - y| ≤ 1 / 10 ^ 6)
    isZero := fun a _ => decide (∃ x, a.val? = some x ∧ |x| ≤ 1 / 10 ^ 6) }
attribute [local instance] tolIe

theorem dec_true {p : Prop} {i : Decidable p} (h : p) : @decide p i = true := decide_eq_true h
theorem dec_false {p : Prop} {i : Decidable p} (h : ¬ p) : @decide p i = false := decide_eq_false h

/-- The segments from (0, 0) to (1, 1) and from (1, 0) to (-1, 1), as doubles. -/
noncomputable def crossIe : Segment (Ieee double64) 2 × Segment (Ieee double64) 2 :=
  (⟨![ie64 0, ie64 0], ![ie64 1, ie64 1]⟩, ⟨![ie64 1, ie64 0], ![ie64 (-1), ie64 1]⟩)

theorem crossIe_vals : reals crossIe.1.source = ![0, 0] ∧ reals crossIe.1.target = ![1, 1] ∧ reals crossIe.2.source = ![1, 0] ∧ reals crossIe.2.target = ![-1, 1] := by
  have h : ∀ m n hm hn, reals (![ie64 m hm, ie64 n hn] : Vec (Ieee double64) 2) = ![(m : ℝ), (n : ℝ)] := fun m n hm hn => by
    funext i; fin_cases i <;> rfl
  refine ⟨(h _ _ _ _).trans (by simp), (h _ _ _ _).trans (by simp), (h _ _ _ _).trans (by simp), (h _ _ _ _).trans (by simp)⟩

theorem crossIe_most (k : ℕ) : (∀ i, AtMost k (crossIe.1.source i) ∧ AtMost k (crossIe.1.target i)) ∧ ∀ i, AtMost k (crossIe.2.source i) ∧ AtMost k (crossIe.2.target i) := by
  have h1 : (1 : ℝ) ≤ 2 ^ k := one_le_pow₀ (by norm_num)
  have h : ∀ (m : ℤ) hm, |(m : ℝ)| ≤ 1 → AtMost k (ie64 m hm) := fun m hm h => ⟨m, rfl, h.trans h1⟩
  constructor <;> intro i <;> fin_cases i <;> exact ⟨h _ _ (by norm_num), h _ _ (by norm_num)⟩

theorem tolIe_facts : (∀ (z : Ieee double64) x, z.val? = some x → |x| * 2 ^ 20 < 1 → Tol.isZero z Tol.eps = true) ∧
    (∀ (z : Ieee double64) x, z.val? = some x → x < -(1 / 10 ^ 6) → Tol.isLess z 0 Tol.eps = true) ∧
    ∀ (z : Ieee double64) x, z.val? = some x → 1 + 1 / 10 ^ 6 < x → Tol.isGreater z 1 Tol.eps = true :=
  ⟨fun z x hz hx => dec_true ⟨x, hz, by norm_num at hx ⊢; linarith⟩,
   fun z x hz hx => dec_true ⟨x, 0, hz, rfl, by linarith⟩,
   fun z x hz hx => dec_true ⟨x, 1, hz, rfl, by linarith⟩⟩

/-- They are found to cross near (1/3, 1/3). -/
example [DecidableEq (Ieee double64)] : ∃ p, intersectSegment2 false crossIe.1 crossIe.2 = .ok (some p) ∧ ∀ i, |reals p i - 1 / 3| ≤ 1 / 10 ^ 12 := by
  obtain ⟨v1, v2, v3, v4⟩ := crossIe_vals
  obtain ⟨p, h1, -, h3⟩ := C149_accuracy_partial (F := double64) 500 (by show 2 * 500 + 4 < 1024; norm_num) crossIe.1 crossIe.2 Tol.eps (crossIe_most _).1 (crossIe_most _).2
    (by show 10 ≤ 53; norm_num) (L := 2) (A := 0) (Δ := 3) (q := fun _ => 1 / 3) v1.symm v2.symm v3.symm v4.symm
    (by intro i; fin_cases i <;> simp) (by intro i; fin_cases i <;> (simp; try norm_num))
    (by intro i; fin_cases i <;> simp) (by norm_num) (by intro i; fin_cases i <;> simp) (by simp; norm_num)
    (by show 72 * (2 : ℝ)⁻¹ ^ 53 * 2 ^ 2 ≤ |3|; norm_num) (small64 (by norm_num))
    ⟨1 / 3, by norm_num, by norm_num, by funext i; fin_cases i <;> simp⟩
    ⟨1 / 3, by norm_num, by norm_num, by funext i; fin_cases i <;> (simp; try norm_num)⟩
    (fun z x hz hx => dec_false (by
      rintro ⟨y, hy, hy2⟩
      cases hz.symm.trans hy
      rw [abs_of_pos (by norm_num : (0 : ℝ) < 3)] at hx
      linarith))
    (fun z x hz hx1 hx2 => by
      have e : 40 * (2 : ℝ)⁻¹ ^ double64.prec * (2 ^ 2 / |3|) ≤ 1 / 10 ^ 6 := by
        show 40 * (2 : ℝ)⁻¹ ^ 53 * _ ≤ _
        norm_num
      constructor
      · refine dec_false ?_
        rintro ⟨y, w, hy, hw, hy2⟩
        cases hz.symm.trans hy
        cases hw
        change x < 0 - 1 / 10 ^ 6 at hy2
        linarith
      · refine dec_false ?_
        rintro ⟨y, w, hy, hw, hy2⟩
        cases hz.symm.trans hy
        cases hw
        change 1 + 1 / 10 ^ 6 < x at hy2
        linarith)
  refine ⟨p, h1, fun i => (h3 i).trans ?_⟩
  show (2 : ℝ)⁻¹ ^ 53 * (50 * 2 ^ 3 / |3| + 0) ≤ 1 / 10 ^ 12
  norm_num

/-- What is reported for them is finite and near (1/3, 1/3). -/
example [DecidableEq (Ieee double64)] {p : Vec (Ieee double64) 2} (h : intersectSegment2 false crossIe.1 crossIe.2 = .ok (some p)) (i : Fin 2) :
    (∃ r, (p i).val? = some r) ∧ |reals p i - 1 / 3| ≤ 1 / 10 ^ 12 := by
  obtain ⟨v1, v2, v3, v4⟩ := crossIe_vals
  obtain ⟨z1, z2, z3⟩ := tolIe_facts
  obtain ⟨hf, q, ⟨t, -, -, h1⟩, ⟨s, -, -, h2⟩, h3⟩ := C149_point_partial (F := double64) 490 20 (by show 2 * 490 + 20 + 4 < 1024; norm_num) crossIe.1 crossIe.2 Tol.eps
    (crossIe_most _).1 (crossIe_most _).2 (by show 10 ≤ 53; norm_num) (L := 2) (A := 0) (Δ := 3) (θ := 1 / 10 ^ 6) v1.symm v2.symm v3.symm v4.symm
    (by intro i; fin_cases i <;> simp) (by intro i; fin_cases i <;> (simp; try norm_num))
    (by intro i; fin_cases i <;> simp) (by norm_num) (by intro i; fin_cases i <;> simp) (by simp; norm_num)
    (by show 72 * (2 : ℝ)⁻¹ ^ 53 * 2 ^ 2 ≤ |3|; norm_num) (small64 (by norm_num)) (by norm_num) z1 z2 z3 h
  have hq : ∀ i, q i = 1 / 3 := by
    have e0 := congrFun (h1.symm.trans h2) 0
    have e1 := congrFun (h1.symm.trans h2) 1
    simp at e0 e1
    intro i
    rw [h1]
    fin_cases i <;> (simp; linarith)
  have := h3 i
  rw [hq i] at this
  refine ⟨hf i, this.trans ?_⟩
  show (2 : ℝ)⁻¹ ^ 53 * (64 * 2 ^ 3 / |3| + 0) ≤ 1 / 10 ^ 12
  norm_num

/-- The sweep over these two segments. -/
example [DecidableEq (Ieee double64)] (o : StatusSearch) (es : List (BOEvent (Ieee double64))) (hes : es.Perm (boEvents [crossIe.1, crossIe.2])) :
    ∃ pts, bentleyOttmann false o [crossIe.1, crossIe.2] es = .ok pts ∧ pts.length ≤ 6 ∧ ∀ p ∈ pts, ∀ i, ∃ r, (p i).val? = some r := by
  obtain ⟨v1, v2, v3, v4⟩ := crossIe_vals
  obtain ⟨z1, z2, z3⟩ := tolIe_facts
  obtain ⟨pts, h1, h2, h3⟩ := C149_sweep_partial (F := double64) 0 20 (by show 2 * 0 + 20 + 4 < 1024; norm_num) o _ es hes (by show 10 ≤ 53; norm_num) (θ := 1 / 10 ^ 6)
    (by
      intro s hs i
      simp only [List.mem_cons, List.not_mem_nil, or_false] at hs
      rcases hs with rfl | rfl
      · exact (crossIe_most 0).1 i
      · exact (crossIe_most 0).2 i)
    (small64 (by norm_num)) (by norm_num) z1 z2 z3
  refine ⟨pts, h1, h2, fun p hp i => ?_⟩
  obtain ⟨a, b, sa, sb, hab, ha, hb, h⟩ := h3 p hp
  have hcase : (a = 0 ∧ b = 1) ∨ (a = 1 ∧ b = 0) := by
    have l1 := (List.getElem?_eq_some_iff.1 ha).1
    have l2 := (List.getElem?_eq_some_iff.1 hb).1
    simp only [List.length_cons, List.length_nil] at l1 l2
    omega
  rcases hcase with ⟨rfl, rfl⟩ | ⟨rfl, rfl⟩
  all_goals
    cases ha
    cases hb
  · exact (h 3 (by rw [v1, v2, v3, v4]; simp; norm_num) (by show 288 * (2 : ℝ)⁻¹ ^ 53 * _ ≤ _; norm_num)).1 i
  · exact (h (-3) (by rw [v1, v2, v3, v4]; simp; norm_num) (by show 288 * (2 : ℝ)⁻¹ ^ 53 * _ ≤ _; norm_num)).1 i

/-- Two crossing segments of doubles with a NaN for their common point. -/
example [DecidableEq (Ieee double64)] : ∃ first second : Segment (Ieee double64) 2, reals first.target = ![2 ^ 1023, 2 ^ 1023] ∧
    intersectSegment2 false first second = .ok (some fun _ => nan) := by
  have hn : ∀ x, (nan : Ieee double64).val? = some x → False := fun x h => by cases h
  have hi : ∀ x, (inf false : Ieee double64).val? = some x → False := fun x h => by cases h
  obtain ⟨f, s, M, rfl, -, h1, -, -, -, -, h⟩ := C149_counterexample (F := double64) Tol.eps
    (dec_false (by rintro ⟨x, h, -⟩; exact hi x h)) (dec_false (by rintro ⟨x, y, h, -⟩; exact hn x h))
    (dec_false (by rintro ⟨x, y, h, -⟩; exact hn x h))
  exact ⟨f, s, h1, h⟩

/-- Two crossing segments of doubles with a finite wrong point. -/
example [DecidableEq (Ieee double64)] : ∃ (f g : Segment (Ieee double64) 2) (q : Vec (Ieee double64) 2), reals f.target = ![2 ^ 511, 0] ∧
    intersectSegment2 false f g = .ok (some q) ∧ reals q = ![-2 ^ 511, 0] := by
  obtain ⟨f, g, M, q, rfl, -, -, h1, -, -, -, h2, -, h3⟩ := C149_wrong_counterexample (F := double64) Tol.eps 511 rfl
    (dec_false (by rintro ⟨x, h, -⟩; cases h)) (fun z hz => ⟨dec_false (by
      rintro ⟨y, w, hy, hw, hy2⟩
      cases hz.symm.trans hy
      cases hw
      change (0 : ℝ) < 0 - 1 / 10 ^ 6 at hy2
      norm_num at hy2), dec_false (by
      rintro ⟨y, w, hy, hw, hy2⟩
      cases hz.symm.trans hy
      cases hw
      change (1 : ℝ) + 1 / 10 ^ 6 < 0 at hy2
      norm_num at hy2)⟩)
  exact ⟨f, g, q, h1, h2, h3⟩
end Examples
end Verif
