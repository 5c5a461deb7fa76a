import Verif.Proofs.FloatVec
import Verif.Props.FloatDistance
import Verif.Props.Transform
import Verif.Model.Transform

set_option linter.unusedSectionVars false

/-
C106: transformations in floating point.
-/
namespace Verif
open Spec Matrix

section
variable {F : FloatFormat}

theorem toHvec_castSucc {T : Type} [Zero T] [One T] (v : Vec T 3) (j : Fin 3) : toHvec v j.castSucc = v j := by
  fin_cases j <;> rfl
theorem toHvec_last {T : Type} [Zero T] [One T] (v : Vec T 3) : toHvec v (Fin.last 3) = 1 := rfl

/-- One row of a transformation. -/
theorem row_err (r : Vec (Fl F) 4) (v : Vec (Fl F) 3) (hp : 9 ≤ F.prec) :
    |(dot r (toHvec v)).1 - (∑ j : Fin 3, (r j.castSucc).1 * (v j).1 + (r 3).1)|
      ≤ 6 * F.unit * (∑ j : Fin 3, |(r j.castSucc).1 * (v j).1| + |(r 3).1|) + 5 * F.tiny := by
  have hu0 := F.unit_pos
  have ht0 := F.tiny_nonneg
  have hu : F.unit ≤ 1 / 512 := by
    unfold FloatFormat.unit
    calc (2 : ℝ)⁻¹ ^ F.prec ≤ 2⁻¹ ^ 9 := pow_le_pow_of_le_one (by norm_num) (by norm_num) hp
      _ = 1 / 512 := by norm_num
  have h := dot_err r (toHvec v) (by push_cast; linarith)
  rw [Fin.sum_univ_castSucc (n := 3) (f := fun i => (r i).1 * (toHvec v i).1), Fin.sum_univ_castSucc (n := 3) (f := fun i => |(r i).1 * (toHvec v i).1|)] at h
  simp only [toHvec_castSucc, toHvec_last, Fl.val_one, mul_one] at h
  set S := ∑ j : Fin 3, |(r j.castSucc).1 * (v j).1| + |(r 3).1| with hS
  have hS0 : 0 ≤ S := add_nonneg (Finset.sum_nonneg fun _ _ => abs_nonneg _) (abs_nonneg _)
  push_cast at h
  have : 0 ≤ F.unit * S := by positivity
  linarith

/-- The values of a matrix. -/
def _root_.Verif.HMat.vals (m : HMat (Fl F)) : HMat ℝ := fun i j => (m i j).1

/-- **C106** Every coordinate of a transformed point is off by at most `6 · 2^-prec` times the sum of the absolute values it is made of (`ω`
is the smallest positive number of the format). Nothing is assumed of the linear part. -/
theorem C106_point (v : Vec (Fl F) 3) (m : HMat (Fl F)) {A : Matrix (Fin 3) (Fin 3) ℝ} {b : Vec ℝ 3} (hm : Describes m.vals A b)
    (hp : 9 ≤ F.prec) {ω : ℝ} (hω : 0 ≤ ω) (hω2 : ∀ k, F.emin = some k → (2 : ℝ) ^ k ≤ ω) (i : Fin 3) :
    |(transformVec v m i).1 - (∑ j, A i j * (v j).1 + b i)| ≤ 6 * (2 : ℝ)⁻¹ ^ F.prec * (∑ j, |A i j * (v j).1| + |b i|) + 5 * ω := by
  have htω : F.tiny ≤ ω := by
    unfold FloatFormat.tiny
    split
    · exact hω
    · next k hk => exact hω2 k hk
  have h := row_err (m i.castSucc) v hp
  have h1 : ∀ j : Fin 3, (m i.castSucc j.castSucc).1 = A i j := hm.1 i
  have h2 : (m i.castSucc 3).1 = b i := hm.2.1 i
  simp only [h1, h2] at h
  change |(transformVec v m i).1 - _| ≤ _ at h
  change _ ≤ 6 * F.unit * _ + _
  linarith

/-- **C106** The shapes are transformed by their points: segments (and with them cones and cylinders) by both ends, spheres and
circles by their centres; radius and normal are kept bit for bit. -/
theorem C106_shapes (m : HMat (Fl F)) {A : Matrix (Fin 3) (Fin 3) ℝ} {b : Vec ℝ 3} (hm : Describes m.vals A b) (hp : 9 ≤ F.prec)
    {ω : ℝ} (hω : 0 ≤ ω) (hω2 : ∀ k, F.emin = some k → (2 : ℝ) ^ k ≤ ω) (seg : Segment (Fl F) 3) (s : Sphere (Fl F)) (c : Circle3 (Fl F))
    (k : Cone (Fl F)) (y : Cylinder (Fl F)) :
    (∀ i, |((transformSegment seg m).source i).1 - (∑ j, A i j * (seg.source j).1 + b i)|
      ≤ 6 * (2 : ℝ)⁻¹ ^ F.prec * (∑ j, |A i j * (seg.source j).1| + |b i|) + 5 * ω) ∧
    (∀ i, |((transformSegment seg m).target i).1 - (∑ j, A i j * (seg.target j).1 + b i)|
      ≤ 6 * (2 : ℝ)⁻¹ ^ F.prec * (∑ j, |A i j * (seg.target j).1| + |b i|) + 5 * ω) ∧
    (∀ i, |((transformSphere s m).origin i).1 - (∑ j, A i j * (s.origin j).1 + b i)|
      ≤ 6 * (2 : ℝ)⁻¹ ^ F.prec * (∑ j, |A i j * (s.origin j).1| + |b i|) + 5 * ω) ∧ (transformSphere s m).radius = s.radius ∧
    (∀ i, |((transformCircle3 c m).origin i).1 - (∑ j, A i j * (c.origin j).1 + b i)|
      ≤ 6 * (2 : ℝ)⁻¹ ^ F.prec * (∑ j, |A i j * (c.origin j).1| + |b i|) + 5 * ω) ∧ (transformCircle3 c m).radius = c.radius ∧
    (transformCircle3 c m).normal = c.normal ∧
    (transformCone k m).segment = transformSegment k.segment m ∧ (transformCone k m).radius = k.radius ∧
    (transformCylinder y m).segment = transformSegment y.segment m ∧ (transformCylinder y m).radius = y.radius :=
  ⟨C106_point _ m hm hp hω hω2, C106_point _ m hm hp hω hω2, C106_point _ m hm hp hω hω2, rfl, C106_point _ m hm hp hω hω2, rfl, rfl, rfl, rfl, rfl, rfl⟩

/-! ### Exact cases -/

theorem Fl.ext' {a b : Fl F} (h : a.1 = b.1) : a = b := Subtype.ext h

theorem Fl.mul_zero_val (a : Fl F) (b : Fl F) (h : a.1 = 0) : (a * b).1 = 0 := by
  show F.rnd (a.1 * b.1) = 0
  rw [h, zero_mul, F.rounds.zero]

theorem Fl.mul_sign_val (a : Fl F) (b : Fl F) (h : a.1 = 1 ∨ a.1 = -1) : (a * b).1 = a.1 * b.1 := by
  show F.rnd (a.1 * b.1) = _
  rcases h with h | h
  · rw [h, one_mul, F.rounds.exact b.2]
  · rw [h, neg_one_mul, F.rounds.odd, F.rounds.exact b.2]

theorem Fl.add_zero_val (a b : Fl F) (h : b.1 = 0) : (a + b).1 = a.1 := by
  show F.rnd (a.1 + b.1) = _
  rw [h, add_zero, F.rounds.exact a.2]

theorem Fl.zero_add_val (a b : Fl F) (h : a.1 = 0) : (a + b).1 = b.1 := by
  show F.rnd (a.1 + b.1) = _
  rw [h, zero_add, F.rounds.exact b.2]

theorem sum_single (a : Fin 3 → Fl F) (k : Fin 3) (hz : ∀ j, j ≠ k → (a j).1 = 0) : (0 + a 0 + a 1 + a 2 : Fl F).1 = (a k).1 := by
  have z : (0 : Fl F).1 = 0 := rfl
  have e0 : (0 + a 0 : Fl F).1 = (a 0).1 := Fl.zero_add_val _ _ z
  fin_cases k
  · exact (Fl.add_zero_val _ _ (hz 2 (by decide))).trans ((Fl.add_zero_val _ _ (hz 1 (by decide))).trans e0)
  · exact (Fl.add_zero_val _ _ (hz 2 (by decide))).trans (Fl.zero_add_val _ _ (e0.trans (hz 0 (by decide))))
  · exact Fl.zero_add_val _ _ ((Fl.add_zero_val _ _ (hz 1 (by decide))).trans (e0.trans (hz 0 (by decide))))

theorem dot4 {T : Type} [Zero T] [Add T] [Mul T] (r v : Vec T 4) :
    dot r v = 0 + r 0 * v 0 + r 1 * v 1 + r 2 * v 2 + r 3 * v 3 := by
  simp [dot, Fin.foldl_succ]

/-- **C106** If every row of the linear part has a single entry, and that is 1 or -1 (the identity, reflections and turns by
multiples of 90 degrees about the axes, exchanges of axes), every coordinate of the result is the correctly rounded exact one: exact, if there is no translation. -/
theorem C106_axes (v : Vec (Fl F) 3) (m : HMat (Fl F)) {A : Matrix (Fin 3) (Fin 3) ℝ} {b : Vec ℝ 3} (hm : Describes m.vals A b)
    (i k : Fin 3) (hk : A i k = 1 ∨ A i k = -1) (h0 : ∀ j, j ≠ k → A i j = 0) :
    (transformVec v m i).1 = F.rnd (∑ j, A i j * (v j).1 + b i) ∧ (b i = 0 → (transformVec v m i).1 = ∑ j, A i j * (v j).1) := by
  have hs : ∑ j, A i j * (v j).1 = A i k * (v k).1 := by
    rw [Finset.sum_eq_single k (fun j _ hj => by rw [h0 j hj, zero_mul]) (fun h => absurd (Finset.mem_univ k) h)]
  have h1 : ∀ j : Fin 3, (m i.castSucc j.castSucc).1 = A i j := hm.1 i
  have h2 : (m i.castSucc 3).1 = b i := hm.2.1 i
  have hz : ∀ j : Fin 3, j ≠ k → (m i.castSucc j.castSucc * v j).1 = 0 := fun j hj => Fl.mul_zero_val _ _ (by rw [h1, h0 j hj])
  have ho : (m i.castSucc k.castSucc * v k).1 = A i k * (v k).1 := by
    rw [Fl.mul_sign_val _ _ (by rw [h1]; exact hk), h1]
  have hl : (m i.castSucc 3 * (1 : Fl F)).1 = b i := by
    show F.rnd ((m i.castSucc 3).1 * 1) = _
    rw [mul_one, F.rounds.exact (m i.castSucc 3).2, h2]
  have key : (transformVec v m i).1 = F.rnd (A i k * (v k).1 + b i) := by
    show (dot (m i.castSucc) (toHvec v)).1 = _
    rw [dot4]
    show F.rnd ((0 + m i.castSucc 0 * v 0 + m i.castSucc 1 * v 1 + m i.castSucc 2 * v 2 : Fl F).1 + (m i.castSucc 3 * (1 : Fl F)).1) = _
    rw [hl]
    congr 2
    rw [← ho]
    exact sum_single (fun j => m i.castSucc j.castSucc * v j) k hz
  refine ⟨by rw [hs, key], fun hb => ?_⟩
  rw [hs, key, hb, add_zero, ← ho, F.rounds.exact (m i.castSucc k.castSucc * v k).2]

/-- **C106** The identity changes nothing. -/
theorem C106_identity (v : Vec (Fl F) 3) : transformVec v hmatIdentity = v := by
  have hm : Describes (HMat.vals (hmatIdentity : HMat (Fl F))) (1 : Matrix (Fin 3) (Fin 3) ℝ) 0 := by
    refine ⟨?_, ?_, ?_, rfl⟩
    · intro i j; fin_cases i <;> fin_cases j <;> rfl
    · intro i; fin_cases i <;> rfl
    · intro j; fin_cases j <;> rfl
  funext i
  apply Fl.ext'
  rw [(C106_axes v _ hm i i (.inl (by simp)) (fun j hj => Matrix.one_apply_ne' hj)).2 rfl]
  simp [Matrix.one_apply]

/-- **C106** A matrix without negative entries preserves the order of points, rounding included: what lies in a box stays in the transformed
box, exactly. -/
theorem C106_box (m : HMat (Fl F)) (hm : ∀ i j : Fin 3, 0 ≤ m i.castSucc j.castSucc) (lo hi p : Vec (Fl F) 3)
    (hp : ∀ i, lo i ≤ p i ∧ p i ≤ hi i) (i : Fin 3) :
    transformVec lo m i ≤ transformVec p m i ∧ transformVec p m i ≤ transformVec hi m i := by
  have key : ∀ u v : Vec (Fl F) 3, (∀ i, u i ≤ v i) → transformVec u m i ≤ transformVec v m i := by
    intro u v huv
    have hadd : ∀ a b c d : Fl F, a ≤ b → c ≤ d → a + c ≤ b + d := fun a b c d h1 h2 => F.rounds.mono (add_le_add h1 h2)
    have hmul : ∀ j : Fin 3, m i.castSucc j.castSucc * u j ≤ m i.castSucc j.castSucc * v j := fun j =>
      F.rounds.mono (mul_le_mul_of_nonneg_left (huv j) (hm i j))
    show dot (m i.castSucc) (toHvec u) ≤ dot (m i.castSucc) (toHvec v)
    rw [dot4, dot4]
    exact hadd _ _ _ _ (hadd _ _ _ _ (hadd _ _ _ _ (hadd _ _ _ _ le_rfl (hmul 0)) (hmul 1)) (hmul 2)) le_rfl
  exact ⟨key _ _ fun j => (hp j).1, key _ _ fun j => (hp j).2⟩

/-! ### Rigid motions -/

theorem norm_rows_le {A : Matrix (Fin 3) (Fin 3) ℝ} {η : ℝ} (hη : η ≤ 1 / 8)
    (hA : ∀ w : Vec ℝ 3, |Spec.norm (A *ᵥ w) - Spec.norm w| ≤ η * Spec.norm w) : Spec.norm (fun i => Spec.norm (A i)) ≤ 2 := by
  have hcol : ∀ j : Fin 3, ∑ i, A i j ^ 2 ≤ (9 / 8) ^ 2 := by
    intro j
    have h := hA (Pi.single j 1)
    have h1 : Spec.norm (Pi.single j (1 : ℝ) : Vec ℝ 3) = 1 := by
      unfold Spec.norm
      rw [Finset.sum_eq_single j (fun k _ hk => by rw [Pi.single_eq_of_ne hk]; norm_num) (fun h => absurd (Finset.mem_univ j) h)]
      simp
    rw [h1, mulVec_single_one] at h
    have h2 : Spec.norm (A.col j) ≤ 9 / 8 := by have := (abs_le.1 h).2; linarith
    have h3 := norm_sq' (A.col j)
    calc ∑ i, A i j ^ 2 = Spec.norm (A.col j) ^ 2 := h3.symm
      _ ≤ _ := pow_le_pow_left₀ (norm_nonneg' _) h2 2
  unfold Spec.norm
  rw [Real.sqrt_le_left (by norm_num)]
  calc ∑ i, Real.sqrt (∑ j, A i j ^ 2) ^ 2 = ∑ i, ∑ j, A i j ^ 2 := by
        refine Finset.sum_congr rfl fun i _ => Real.sq_sqrt (Finset.sum_nonneg fun _ _ => sq_nonneg _)
    _ = ∑ j, ∑ i, A i j ^ 2 := Finset.sum_comm
    _ ≤ ∑ _j : Fin 3, (9 / 8 : ℝ) ^ 2 := Finset.sum_le_sum fun j _ => hcol j
    _ ≤ 2 ^ 2 := by simp; norm_num

/-- **C106** Rigid motions: if the linear part changes lengths by a factor within `1 ± η` (`η ≤ 1/8`; the entries of a rotation matrix are themselves rounded), the computed image of a point is within
`12 · 2^-prec ‖p‖ + 6 · 2^-prec ‖b‖ + 9 ω` of the exact image, and distances between points are preserved up to `η` and these errors. -/
theorem C106_rigid (p q : Vec (Fl F) 3) (m : HMat (Fl F)) {A : Matrix (Fin 3) (Fin 3) ℝ} {b : Vec ℝ 3} (hm : Describes m.vals A b)
    (hp : 9 ≤ F.prec) {ω : ℝ} (hω : 0 ≤ ω) (hω2 : ∀ k, F.emin = some k → (2 : ℝ) ^ k ≤ ω) {η : ℝ} (hη : η ≤ 1 / 8)
    (hA : ∀ w : Vec ℝ 3, |Spec.norm (A *ᵥ w) - Spec.norm w| ≤ η * Spec.norm w) :
    Spec.dist (fun i => (transformVec p m i).1) (affine A b fun i => (p i).1)
      ≤ (2 : ℝ)⁻¹ ^ F.prec * (12 * Spec.norm (fun i => (p i).1) + 6 * Spec.norm b) + 9 * ω ∧
    |Spec.dist (fun i => (transformVec p m i).1) (fun i => (transformVec q m i).1) - Spec.dist (fun i => (p i).1) (fun i => (q i).1)|
      ≤ η * Spec.dist (fun i => (p i).1) (fun i => (q i).1)
        + 12 * (2 : ℝ)⁻¹ ^ F.prec * (Spec.norm (fun i => (p i).1) + Spec.norm (fun i => (q i).1) + Spec.norm b) + 18 * ω := by
  have hu0 : 0 < (2 : ℝ)⁻¹ ^ F.prec := by positivity
  have hone : ∀ p : Vec (Fl F) 3, Spec.dist (fun i => (transformVec p m i).1) (affine A b fun i => (p i).1)
      ≤ (2 : ℝ)⁻¹ ^ F.prec * (12 * Spec.norm (fun i => (p i).1) + 6 * Spec.norm b) + 9 * ω := by
    intro p
    set u := (2 : ℝ)⁻¹ ^ F.prec with hu
    set P := Spec.norm (fun i => (p i).1) with hP
    have hP0 : 0 ≤ P := norm_nonneg' _
    have h1 : ∀ i, |(transformVec p m i).1 - affine A b (fun i => (p i).1) i| ≤ (P * (6 * u)) * Spec.norm (A i) + ((6 * u) * |b i| + 5 * ω * 1) := by
      intro i
      have h := C106_point p m hm hp hω hω2 i
      rw [← hu] at h
      have e : affine A b (fun i => (p i).1) i = ∑ j, A i j * (p j).1 + b i := by
        simp [affine, mulVec, dotProduct]
      rw [e]
      have h2 := sum_abs_le (A i) (fun j => (p j).1)
      have h3 := mul_le_mul_of_nonneg_left h2 (by positivity : (0 : ℝ) ≤ 6 * u)
      rw [← hP] at h3
      linarith
    have h2 : Spec.dist (fun i => (transformVec p m i).1) (affine A b fun i => (p i).1)
        = Spec.norm (fun i => (transformVec p m i).1 - affine A b (fun i => (p i).1) i) := rfl
    rw [h2]
    refine (norm_mono h1).trans ((norm_add_le' _ _).trans ?_)
    have h3 := norm_add_le' (fun i => (6 * u) * |b i|) (fun _ : Fin 3 => 5 * ω * 1)
    rw [norm_smul' (by positivity), norm_abs', norm_smul' (by positivity)] at h3
    rw [norm_smul' (by positivity)]
    have h4 := mul_le_mul_of_nonneg_left (norm_rows_le hη hA) (by positivity : 0 ≤ P * (6 * u))
    have h5 : Spec.norm (fun _ : Fin 3 => (1 : ℝ)) ≤ 9 / 5 := by
      unfold Spec.norm
      rw [Real.sqrt_le_left (by norm_num)]
      simp; norm_num
    have h6 := mul_le_mul_of_nonneg_left h5 (by positivity : 0 ≤ 5 * ω)
    linarith
  refine ⟨hone p, ?_⟩
  have e : Spec.dist (affine A b fun i => (p i).1) (affine A b fun i => (q i).1) = Spec.norm (A *ᵥ fun i => (p i).1 - (q i).1) := by
    have : (A *ᵥ fun i => (p i).1 - (q i).1) = fun i => affine A b (fun i => (p i).1) i - affine A b (fun i => (q i).1) i := by
      have h := mulVec_sub A (fun i => (p i).1) (fun i => (q i).1)
      funext i
      have h' := congrFun h i
      simp only [affine, Pi.add_apply, Pi.sub_apply] at h' ⊢
      rw [add_sub_add_right_eq_sub, ← h']
      rfl
    rw [this]; rfl
  have hA' := hA fun i => (p i).1 - (q i).1
  rw [← e] at hA'
  change |_ - Spec.dist (fun i => (p i).1) (fun i => (q i).1)| ≤ η * Spec.dist (fun i => (p i).1) (fun i => (q i).1) at hA'
  have hp1 := hone p
  have hq1 := hone q
  obtain ⟨a1, a2⟩ := abs_le.1 hA'
  have t1 := dist_triangle' (fun i => (transformVec p m i).1) (affine A b fun i => (p i).1) (fun i => (transformVec q m i).1)
  have t2 := dist_triangle' (affine A b fun i => (p i).1) (affine A b fun i => (q i).1) (fun i => (transformVec q m i).1)
  have t3 := dist_triangle' (affine A b fun i => (p i).1) (fun i => (transformVec p m i).1) (affine A b fun i => (q i).1)
  have t4 := dist_triangle' (fun i => (transformVec p m i).1) (fun i => (transformVec q m i).1) (affine A b fun i => (q i).1)
  rw [dist_comm' (affine A b fun i => (q i).1) (fun i => (transformVec q m i).1)] at t2
  rw [dist_comm' (affine A b fun i => (p i).1) (fun i => (transformVec p m i).1)] at t3
  rw [abs_le]
  constructor <;> linarith

/-! ### Composition -/

/-- **C106** Composing the matrices first or transforming twice: both are within `13 · 2^-prec · S + …` of the exact image of the composed maps, `S` the sum of
the absolute values of all products involved. -/
theorem C106_compose (v : Vec (Fl F) 3) (m n : HMat (Fl F)) {A B : Matrix (Fin 3) (Fin 3) ℝ} {b c : Vec ℝ 3}
    (hm : Describes m.vals A b) (hn : Describes n.vals B c) (hp : 9 ≤ F.prec) {ω : ℝ} (hω : 0 ≤ ω)
    (hω2 : ∀ k, F.emin = some k → (2 : ℝ) ^ k ≤ ω) (i : Fin 3) {S : ℝ}
    (hS : S = ∑ k, |A i k| * (∑ j, |B k j * (v j).1| + |c k|) + |b i|) :
    |(transformVec (transformVec v n) m i).1 - affine A b (affine B c fun j => (v j).1) i|
      ≤ 13 * (2 : ℝ)⁻¹ ^ F.prec * S + 6 * ω * (∑ k, |A i k| + 1) ∧
    |(transformVec v (hmatMul m n) i).1 - affine A b (affine B c fun j => (v j).1) i|
      ≤ 13 * (2 : ℝ)⁻¹ ^ F.prec * S + 6 * ω * (∑ k, |(v k).1| + 2) ∧
    |(transformVec v (hmatMul m n) i).1 - (transformVec (transformVec v n) m i).1|
      ≤ 26 * (2 : ℝ)⁻¹ ^ F.prec * S + 6 * ω * (∑ k, |A i k| + ∑ k, |(v k).1| + 3) := by
  set u := (2 : ℝ)⁻¹ ^ F.prec with hu
  have hu0 : 0 < u := by positivity
  have hu1 : u ≤ 1 / 512 := by
    calc (2 : ℝ)⁻¹ ^ F.prec ≤ 2⁻¹ ^ 9 := pow_le_pow_of_le_one (by norm_num) (by norm_num) hp
      _ = 1 / 512 := by norm_num
  have htω : F.tiny ≤ ω := by
    unfold FloatFormat.tiny
    split
    · exact hω
    · next k hk => exact hω2 k hk
  have hS0 : 0 ≤ S := by
    rw [hS]
    refine add_nonneg (Finset.sum_nonneg fun k _ => mul_nonneg (abs_nonneg _) (add_nonneg (Finset.sum_nonneg fun _ _ => abs_nonneg _) (abs_nonneg _))) (abs_nonneg _)
  have huS : u * (u * S) ≤ 1 / 512 * (u * S) := mul_le_mul_of_nonneg_right hu1 (by positivity)
  have hax : affine A b (affine B c fun j => (v j).1) i = ∑ k, A i k * (∑ j, B k j * (v j).1 + c k) + b i := by
    simp [affine, mulVec, dotProduct]
  rw [hax]
  have first : |(transformVec (transformVec v n) m i).1 - (∑ k, A i k * (∑ j, B k j * (v j).1 + c k) + b i)|
      ≤ 13 * u * S + 6 * ω * (∑ k, |A i k| + 1) := by
    set y := transformVec v n with hy
    have hyk : ∀ k, |(y k).1 - (∑ j, B k j * (v j).1 + c k)| ≤ 6 * u * (∑ j, |B k j * (v j).1| + |c k|) + 5 * ω :=
      fun k => C106_point v n hn hp hω hω2 k
    have hx := C106_point y m hm hp hω hω2 i
    rw [← hu] at hx
    set Sa := ∑ k, |A i k| with hSa
    have hSa0 : 0 ≤ Sa := Finset.sum_nonneg fun _ _ => abs_nonneg _
    -- the values going in
    have g1 : |∑ k, A i k * (y k).1 - ∑ k, A i k * (∑ j, B k j * (v j).1 + c k)|
        ≤ 6 * u * (S - |b i|) + 5 * ω * Sa := by
      rw [← Finset.sum_sub_distrib]
      refine (Finset.abs_sum_le_sum_abs _ _).trans ?_
      have : ∀ k ∈ Finset.univ, |A i k * (y k).1 - A i k * (∑ j, B k j * (v j).1 + c k)|
          ≤ 6 * u * (|A i k| * (∑ j, |B k j * (v j).1| + |c k|)) + 5 * ω * |A i k| := by
        intro k _
        rw [← mul_sub, abs_mul]
        have := mul_le_mul_of_nonneg_left (hyk k) (abs_nonneg (A i k))
        linarith
      refine (Finset.sum_le_sum this).trans (le_of_eq ?_)
      rw [Finset.sum_add_distrib, ← Finset.mul_sum, ← Finset.mul_sum, hS]
      ring
    have g2 : ∑ k, |A i k * (y k).1| ≤ (S - |b i|) + (6 * u * (S - |b i|) + 5 * ω * Sa) := by
      have : ∀ k ∈ Finset.univ, |A i k * (y k).1|
          ≤ |A i k| * (∑ j, |B k j * (v j).1| + |c k|) + (6 * u * (|A i k| * (∑ j, |B k j * (v j).1| + |c k|)) + 5 * ω * |A i k|) := by
        intro k _
        rw [abs_mul]
        have e1 : |∑ j, B k j * (v j).1 + c k| ≤ ∑ j, |B k j * (v j).1| + |c k| :=
          (abs_add_le _ _).trans (add_le_add (Finset.abs_sum_le_sum_abs _ _) le_rfl)
        have e2 : |(y k).1| ≤ |(y k).1 - (∑ j, B k j * (v j).1 + c k)| + |∑ j, B k j * (v j).1 + c k| := by
          have := abs_add_le ((y k).1 - (∑ j, B k j * (v j).1 + c k)) (∑ j, B k j * (v j).1 + c k)
          rwa [sub_add_cancel] at this
        have := mul_le_mul_of_nonneg_left (e2.trans (add_le_add (hyk k) e1)) (abs_nonneg (A i k))
        linarith
      refine (Finset.sum_le_sum this).trans (le_of_eq ?_)
      rw [Finset.sum_add_distrib, Finset.sum_add_distrib, ← Finset.mul_sum, ← Finset.mul_sum, hS]
      ring
    have hb0 := abs_nonneg (b i)
    have g3 : ∑ k, |A i k * (y k).1| + |b i| ≤ S + 6 * u * S + 5 * ω * Sa := by
      have := mul_nonneg hu0.le hb0
      linarith
    have g4 := mul_le_mul_of_nonneg_left g3 (by positivity : 0 ≤ 6 * u)
    have g5 : 6 * u * (5 * ω * Sa) ≤ 1 * (ω * Sa) := by
      have := mul_le_mul_of_nonneg_right hu1 (by positivity : 0 ≤ ω * Sa)
      linarith [mul_nonneg hω hSa0]
    have t := abs_add_le ((transformVec y m i).1 - (∑ k, A i k * (y k).1 + b i)) (∑ k, A i k * (y k).1 - ∑ k, A i k * (∑ j, B k j * (v j).1 + c k))
    have e : (transformVec y m i).1 - (∑ k, A i k * (y k).1 + b i) + (∑ k, A i k * (y k).1 - ∑ k, A i k * (∑ j, B k j * (v j).1 + c k))
        = (transformVec y m i).1 - (∑ k, A i k * (∑ j, B k j * (v j).1 + c k) + b i) := by ring
    rw [e] at t
    have hub := mul_nonneg hu0.le hb0
    have huS0 := mul_nonneg hu0.le hS0
    linarith
  have second : |(transformVec v (hmatMul m n) i).1 - (∑ k, A i k * (∑ j, B k j * (v j).1 + c k) + b i)|
      ≤ 13 * u * S + 6 * ω * (∑ k, |(v k).1| + 2) := by
    set r := hmatMul m n i.castSucc with hr
    have hA1 : ∀ j : Fin 3, (m i.castSucc j.castSucc).1 = A i j := hm.1 i
    have hA2 : (m i.castSucc 3).1 = b i := hm.2.1 i
    have hB1 : ∀ k j : Fin 3, (n k.castSucc j.castSucc).1 = B k j := hn.1
    have hB2 : ∀ k : Fin 3, (n k.castSucc 3).1 = c k := hn.2.1
    have hB3 : ∀ j : Fin 3, (n 3 j.castSucc).1 = 0 := hn.2.2.1
    have hB4 : (n 3 3).1 = 1 := hn.2.2.2
    have hD : (((4 : ℕ) : ℝ) + 2) * F.unit ≤ 1 / 64 := by
      have : F.unit ≤ 1 / 512 := hu1
      push_cast; linarith
    have hrj : ∀ j : Fin 3, |(r j.castSucc).1 - ∑ k, A i k * B k j| ≤ 6 * u * (∑ k, |A i k * B k j|) + 5 * ω := by
      intro j
      have h := dot_err (m i.castSucc) (fun k => n k j.castSucc) hD
      rw [Fin.sum_univ_castSucc (n := 3) (f := fun k => (m i.castSucc k).1 * (n k j.castSucc).1),
        Fin.sum_univ_castSucc (n := 3) (f := fun k => |(m i.castSucc k).1 * (n k j.castSucc).1|)] at h
      have hl : (n (Fin.last 3) j.castSucc).1 = 0 := hB3 j
      simp only [hl, hA1, hB1, mul_zero, abs_zero, add_zero] at h
      change |(r j.castSucc).1 - _| ≤ 17 / 16 * (((4 : ℕ) + 1) * u) * _ + _ at h
      push_cast at h
      have : 0 ≤ u * ∑ k, |A i k * B k j| := mul_nonneg hu0.le (Finset.sum_nonneg fun _ _ => abs_nonneg _)
      linarith
    have hr3 : |(r 3).1 - (∑ k, A i k * c k + b i)| ≤ 6 * u * (∑ k, |A i k * c k| + |b i|) + 5 * ω := by
      have h := dot_err (m i.castSucc) (fun k => n k 3) hD
      rw [Fin.sum_univ_castSucc (n := 3) (f := fun k => (m i.castSucc k).1 * (n k 3).1),
        Fin.sum_univ_castSucc (n := 3) (f := fun k => |(m i.castSucc k).1 * (n k 3).1|)] at h
      have hl : (n (Fin.last 3) 3).1 = 1 := hB4
      have hl2 : (m i.castSucc (Fin.last 3)).1 = b i := hA2
      simp only [hl, hl2, hA1, hB2, mul_one] at h
      change |(r 3).1 - _| ≤ 17 / 16 * (((4 : ℕ) + 1) * u) * _ + _ at h
      push_cast at h
      have : 0 ≤ u * (∑ k, |A i k * c k| + |b i|) := mul_nonneg hu0.le (add_nonneg (Finset.sum_nonneg fun _ _ => abs_nonneg _) (abs_nonneg _))
      linarith
    have hx := row_err r v hp
    change |(transformVec v (hmatMul m n) i).1 - _| ≤ 6 * u * _ + _ at hx
    set Sv := ∑ k, |(v k).1| with hSv
    have hSv0 : 0 ≤ Sv := Finset.sum_nonneg fun _ _ => abs_nonneg _
    have eS : S = ∑ j, (∑ k, |A i k * B k j|) * |(v j).1| + (∑ k, |A i k * c k| + |b i|) := by
      rw [hS]
      simp only [Fin.sum_univ_three, abs_mul]
      ring
    have eX : ∑ k, A i k * (∑ j, B k j * (v j).1 + c k) + b i = ∑ j, (∑ k, A i k * B k j) * (v j).1 + (∑ k, A i k * c k + b i) := by
      simp only [Fin.sum_univ_three]
      ring
    rw [eX]
    have g1 : |(∑ j : Fin 3, (r j.castSucc).1 * (v j).1 + (r 3).1) - (∑ j, (∑ k, A i k * B k j) * (v j).1 + (∑ k, A i k * c k + b i))|
        ≤ 6 * u * S + 5 * ω * Sv + 5 * ω := by
      have s1 : |∑ j : Fin 3, (r j.castSucc).1 * (v j).1 - ∑ j, (∑ k, A i k * B k j) * (v j).1|
          ≤ ∑ j, (6 * u * ((∑ k, |A i k * B k j|) * |(v j).1|) + 5 * ω * |(v j).1|) := by
        rw [← Finset.sum_sub_distrib]
        refine (Finset.abs_sum_le_sum_abs _ _).trans (Finset.sum_le_sum fun j _ => ?_)
        rw [← sub_mul, abs_mul]
        have := mul_le_mul_of_nonneg_right (hrj j) (abs_nonneg (v j).1)
        linarith
      rw [Finset.sum_add_distrib, ← Finset.mul_sum, ← Finset.mul_sum] at s1
      have t := abs_add_le (∑ j : Fin 3, (r j.castSucc).1 * (v j).1 - ∑ j, (∑ k, A i k * B k j) * (v j).1) ((r 3).1 - (∑ k, A i k * c k + b i))
      have e : ∑ j : Fin 3, (r j.castSucc).1 * (v j).1 - ∑ j, (∑ k, A i k * B k j) * (v j).1 + ((r 3).1 - (∑ k, A i k * c k + b i))
          = (∑ j : Fin 3, (r j.castSucc).1 * (v j).1 + (r 3).1) - (∑ j, (∑ k, A i k * B k j) * (v j).1 + (∑ k, A i k * c k + b i)) := by ring
      rw [e] at t
      rw [eS]
      linarith
    have g2 : ∑ j : Fin 3, |(r j.castSucc).1 * (v j).1| + |(r 3).1| ≤ S + (6 * u * S + 5 * ω * Sv + 5 * ω) := by
      have s1 : ∑ j : Fin 3, |(r j.castSucc).1 * (v j).1|
          ≤ ∑ j, ((∑ k, |A i k * B k j|) * |(v j).1| + (6 * u * ((∑ k, |A i k * B k j|) * |(v j).1|) + 5 * ω * |(v j).1|)) := by
        refine Finset.sum_le_sum fun j _ => ?_
        rw [abs_mul]
        have e1 : |(r j.castSucc).1| ≤ |(r j.castSucc).1 - ∑ k, A i k * B k j| + ∑ k, |A i k * B k j| := by
          have := abs_add_le ((r j.castSucc).1 - ∑ k, A i k * B k j) (∑ k, A i k * B k j)
          rw [sub_add_cancel] at this
          exact this.trans (add_le_add le_rfl (Finset.abs_sum_le_sum_abs _ _))
        have := mul_le_mul_of_nonneg_right (e1.trans (add_le_add (hrj j) le_rfl)) (abs_nonneg (v j).1)
        linarith
      rw [Finset.sum_add_distrib, Finset.sum_add_distrib, ← Finset.mul_sum, ← Finset.mul_sum] at s1
      have s2 : |(r 3).1| ≤ |(r 3).1 - (∑ k, A i k * c k + b i)| + (∑ k, |A i k * c k| + |b i|) := by
        have := abs_add_le ((r 3).1 - (∑ k, A i k * c k + b i)) (∑ k, A i k * c k + b i)
        rw [sub_add_cancel] at this
        refine this.trans (add_le_add le_rfl ((abs_add_le _ _).trans (add_le_add (Finset.abs_sum_le_sum_abs _ _) le_rfl)))
      rw [eS]
      linarith
    have g3 := mul_le_mul_of_nonneg_left g2 (by positivity : 0 ≤ 6 * u)
    have g5 : 6 * u * (5 * ω * Sv + 5 * ω) ≤ 1 * (ω * Sv + ω) := by
      have := mul_le_mul_of_nonneg_right hu1 (by positivity : 0 ≤ ω * Sv + ω)
      linarith [mul_nonneg hω hSv0]
    have t := abs_add_le ((transformVec v (hmatMul m n) i).1 - (∑ j : Fin 3, (r j.castSucc).1 * (v j).1 + (r 3).1))
      ((∑ j : Fin 3, (r j.castSucc).1 * (v j).1 + (r 3).1) - (∑ j, (∑ k, A i k * B k j) * (v j).1 + (∑ k, A i k * c k + b i)))
    rw [sub_add_sub_cancel] at t
    have huS0 := mul_nonneg hu0.le hS0
    linarith
  refine ⟨first, second, ?_⟩
  have t := abs_sub_le (transformVec v (hmatMul m n) i).1 (∑ k, A i k * (∑ j, B k j * (v j).1 + c k) + b i) (transformVec (transformVec v n) m i).1
  rw [abs_sub_comm (∑ k, A i k * (∑ j, B k j * (v j).1 + c k) + b i)] at t
  linarith

/-! ### The plane -/

/-- **C106** Points of the plane are transformed as points with z = 0; the third column of the matrix plays no part. -/
theorem C106_planar (v : Vec (Fl F) 2) (m : HMat (Fl F)) {A : Matrix (Fin 2) (Fin 2) ℝ} {b : Vec ℝ 2} (hm : DescribesPlanar m.vals A b)
    (hp : 9 ≤ F.prec) {ω : ℝ} (hω : 0 ≤ ω) (hω2 : ∀ k, F.emin = some k → (2 : ℝ) ^ k ≤ ω) (i : Fin 2) :
    |(transformVec2 v m i).1 - (∑ j, A i j * (v j).1 + b i)| ≤ 6 * (2 : ℝ)⁻¹ ^ F.prec * (∑ j, |A i j * (v j).1| + |b i|) + 5 * ω := by
  have htω : F.tiny ≤ ω := by
    unfold FloatFormat.tiny
    split
    · exact hω
    · next k hk => exact hω2 k hk
  have e : (toHvec v : Vec (Fl F) 4) = toHvec (fun i : Fin 3 => if h : i.val < 2 then v ⟨i.val, h⟩ else 0) := by
    funext j; fin_cases j <;> rfl
  have h := row_err (m (i.castLE (by decide))) (fun i : Fin 3 => if h : i.val < 2 then v ⟨i.val, h⟩ else 0) hp
  rw [← e] at h
  change |(transformVec2 v m i).1 - _| ≤ _ at h
  have h1 : ∀ j : Fin 2, (m (i.castLE (by decide)) (j.castLE (by decide))).1 = A i j := hm.1 i
  have h2 : (m (i.castLE (by decide)) 3).1 = b i := hm.2 i
  have h10 := h1 0
  have h11 := h1 1
  have e0 : (Fin.castLE (by decide) (0 : Fin 2) : Fin 4) = 0 := rfl
  have e1 : (Fin.castLE (by decide) (1 : Fin 2) : Fin 4) = 1 := rfl
  rw [e0] at h10
  rw [e1] at h11
  rw [Fin.sum_univ_three, Fin.sum_univ_three, h2] at h
  have z : ((if h : (2 : Fin 3).val < 2 then v ⟨(2 : Fin 3).val, h⟩ else 0 : Fl F)).1 = 0 := rfl
  rw [z, mul_zero, abs_zero, add_zero, add_zero] at h
  change |_ - ((m (i.castLE (by decide)) 0).1 * (v 0).1 + (m (i.castLE (by decide)) 1).1 * (v 1).1 + b i)|
    ≤ 6 * F.unit * (|(m (i.castLE (by decide)) 0).1 * (v 0).1| + |(m (i.castLE (by decide)) 1).1 * (v 1).1| + |b i|) + _ at h
  rw [h10, h11] at h
  rw [Fin.sum_univ_two, Fin.sum_univ_two]
  change _ ≤ 6 * F.unit * _ + _
  linarith
end
end Verif

/-! ### Examples: doubles -/
namespace Verif
open Spec Matrix
section Examples

/-- A quarter turn about the z-axis, then a shift by (5, 7, 9). -/
noncomputable def turn64 : HMat (Fl binary64) :=
  ![![fl64 0, fl64 (-1), fl64 0, fl64 5], ![fl64 1, fl64 0, fl64 0, fl64 7], ![fl64 0, fl64 0, fl64 1, fl64 9], ![fl64 0, fl64 0, fl64 0, fl64 1]]

/-- A matrix that is not a motion. -/
noncomputable def shear64 : HMat (Fl binary64) :=
  ![![fl64 2, fl64 3, fl64 0, fl64 5], ![fl64 0, fl64 1, fl64 4, fl64 7], ![fl64 1, fl64 1, fl64 1, fl64 9], ![fl64 0, fl64 0, fl64 0, fl64 1]]

theorem fl64_val (n : ℤ) (h : |n| < 2 ^ 53) : (fl64 n h).1 = (n : ℝ) := rfl

theorem turn64_describes : Describes turn64.vals !![0, -1, 0; 1, 0, 0; 0, 0, 1] ![5, 7, 9] := by
  refine ⟨?_, ?_, ?_, ?_⟩
  · intro i j; fin_cases i <;> fin_cases j <;> simp [HMat.vals, turn64, fl64_val]
  · intro i; fin_cases i <;> simp [HMat.vals, turn64, fl64_val]
  · intro j; fin_cases j <;> simp [HMat.vals, turn64, fl64_val]
  · simp [HMat.vals, turn64, fl64_val]

theorem shear64_describes : Describes shear64.vals !![2, 3, 0; 0, 1, 4; 1, 1, 1] ![5, 7, 9] := by
  refine ⟨?_, ?_, ?_, ?_⟩
  · intro i j; fin_cases i <;> fin_cases j <;> simp [HMat.vals, shear64, fl64_val]
  · intro i; fin_cases i <;> simp [HMat.vals, shear64, fl64_val]
  · intro j; fin_cases j <;> simp [HMat.vals, shear64, fl64_val]
  · simp [HMat.vals, shear64, fl64_val]

theorem turn64_isometry (w : Vec ℝ 3) : |Spec.norm (!![0, -1, 0; 1, 0, 0; 0, 0, 1] *ᵥ w) - Spec.norm w| ≤ 0 * Spec.norm w := by
  have : Spec.norm (!![0, -1, 0; 1, 0, 0; 0, 0, 1] *ᵥ w) = Spec.norm w := by
    unfold Spec.norm
    congr 1
    simp only [Fin.sum_univ_three, mulVec, dotProduct, Matrix.of_apply, Matrix.cons_val_zero, Matrix.cons_val_one, Matrix.cons_val]
    ring
  rw [this, sub_self, abs_zero, zero_mul]

/-- The image of (100, 200, 300) under the shear has x-coordinate 2·100 + 3·200 + 5 = 805, up to 1e-11. -/
example : |(transformVec (p64 100 200 300) shear64 0).1 - 805| ≤ 1 / 10 ^ 11 := by
  have h := C106_point (p64 100 200 300) shear64 shear64_describes (by show 9 ≤ 53; norm_num) (ω := 1 / 10 ^ 20) (by norm_num) emin64' 0
  have hv := p64_vals 100 200 300 (by norm_num) (by norm_num) (by norm_num)
  have h0 : ((p64 100 200 300) 0).1 = (100 : ℝ) := by exact_mod_cast congrFun hv 0
  have h1 : ((p64 100 200 300) 1).1 = (200 : ℝ) := by exact_mod_cast congrFun hv 1
  have h2 : ((p64 100 200 300) 2).1 = (300 : ℝ) := by exact_mod_cast congrFun hv 2
  simp only [Fin.sum_univ_three] at h
  rw [h0, h1, h2] at h
  simp only [Matrix.of_apply, Matrix.cons_val_zero, Matrix.cons_val_one, Matrix.cons_val] at h
  have hu := unit64'
  generalize (2 : ℝ)⁻¹ ^ binary64.prec = u at h hu
  norm_num at h
  norm_num at hu
  refine h.trans ?_
  norm_num
  linarith

example (seg : Segment (Fl binary64) 3) (c : Circle3 (Fl binary64)) (k : Cone (Fl binary64)) (y : Cylinder (Fl binary64)) :
    (transformSphere ⟨p64 100 200 300, fl64 4⟩ shear64).radius = fl64 4 :=
  (C106_shapes shear64 shear64_describes (by show 9 ≤ 53; norm_num) (ω := 1 / 10 ^ 20) (by norm_num) emin64' seg ⟨p64 100 200 300, fl64 4⟩ c k y).2.2.2.1

/-- Large coordinates under the quarter turn: y + ... is rounded once, and exact if it is representable. -/
example (v : Vec (Fl binary64) 3) : (transformVec v turn64 0).1 = binary64.rnd (-(v 1).1 + 5) := by
  have h := (C106_axes v turn64 turn64_describes 0 1 (.inr (by simp)) (by intro j hj; fin_cases j <;> simp_all)).1
  rw [h]
  congr 1
  simp [Fin.sum_univ_three]

example : transformVec (p64 100 200 300) hmatIdentity = p64 100 200 300 := C106_identity _

/-- The sides of a box are kept in order by the shear (no entry is negative). -/
example (p : Vec (Fl binary64) 3) (h : ∀ i, (p64 0 0 0) i ≤ p i ∧ p i ≤ (p64 10 20 30) i) :
    transformVec p shear64 2 ≤ transformVec (p64 10 20 30) shear64 2 :=
  (C106_box shear64 (by
    intro i j
    show (0 : ℝ) ≤ (shear64 i.castSucc j.castSucc).1
    rw [show (shear64 i.castSucc j.castSucc).1 = _ from shear64_describes.1 i j]
    fin_cases i <;> fin_cases j <;> (simp; try norm_num)) _ _ p h 2).2

/-- The quarter turn keeps the distance 7 of (1, 2, 3) and (3, 5, 9) up to 1e-12. -/
example : |Spec.dist (fun i => (transformVec (p64 1 2 3) turn64 i).1) (fun i => (transformVec (p64 3 5 9) turn64 i).1) - 7| ≤ 1 / 10 ^ 12 := by
  have h := (C106_rigid (p64 1 2 3) (p64 3 5 9) turn64 turn64_describes (by show 9 ≤ 53; norm_num) (ω := 1 / 10 ^ 20) (by norm_num) emin64'
    (η := 0) (by norm_num) turn64_isometry).2
  have hW : Spec.dist (fun i => ((p64 1 2 3) i).1) (fun i => ((p64 3 5 9) i).1) = 7 := by
    rw [p64_vals, p64_vals]; exact dist3 _ _ _ _ _ _ 7 (by norm_num) (by norm_num)
  have b1 : Spec.norm (fun i => ((p64 1 2 3) i).1) ≤ 4 := by
    rw [p64_vals]; unfold Spec.norm; rw [Real.sqrt_le_left (by norm_num)]; simp [Fin.sum_univ_three]; norm_num
  have b2 : Spec.norm (fun i => ((p64 3 5 9) i).1) ≤ 11 := by
    rw [p64_vals]; unfold Spec.norm; rw [Real.sqrt_le_left (by norm_num)]; simp [Fin.sum_univ_three]; norm_num
  have b3 : Spec.norm (![5, 7, 9] : Vec ℝ 3) ≤ 13 := by
    unfold Spec.norm; rw [Real.sqrt_le_left (by norm_num)]; simp [Fin.sum_univ_three]; norm_num
  rw [hW] at h
  have hu := unit64'
  have hu0 : (0 : ℝ) ≤ (2 : ℝ)⁻¹ ^ binary64.prec := by positivity
  generalize (2 : ℝ)⁻¹ ^ binary64.prec = u at h hu hu0
  have := mul_le_mul_of_nonneg_left (add_le_add (add_le_add b1 b2) b3) (by positivity : 0 ≤ 12 * u)
  refine h.trans ?_
  norm_num at hu ⊢
  linarith

/-- The quarter turn twice, or its square once: (100, 200, 300) ends up in the same place, up to 1e-11. -/
example : |(transformVec (p64 100 200 300) (hmatMul turn64 turn64) 0).1 - (transformVec (transformVec (p64 100 200 300) turn64) turn64 0).1| ≤ 1 / 10 ^ 11 := by
  have hv := p64_vals 100 200 300 (by norm_num) (by norm_num) (by norm_num)
  have h0 : ((p64 100 200 300) 0).1 = (100 : ℝ) := by exact_mod_cast congrFun hv 0
  have h1 : ((p64 100 200 300) 1).1 = (200 : ℝ) := by exact_mod_cast congrFun hv 1
  have h2 : ((p64 100 200 300) 2).1 = (300 : ℝ) := by exact_mod_cast congrFun hv 2
  have h := (C106_compose (p64 100 200 300) turn64 turn64 turn64_describes turn64_describes (by show 9 ≤ 53; norm_num) (ω := 1 / 10 ^ 20) (by norm_num)
    emin64' 0 (S := 112) (by
      simp only [Fin.sum_univ_three]
      rw [h0, h1, h2]
      simp
      norm_num)).2.2
  simp only [Fin.sum_univ_three] at h
  rw [h0, h1, h2] at h
  simp only [Matrix.of_apply, Matrix.cons_val_zero, Matrix.cons_val_one, Matrix.cons_val] at h
  have hu := unit64'
  generalize (2 : ℝ)⁻¹ ^ binary64.prec = u at h hu
  refine h.trans ?_
  norm_num at hu ⊢
  linarith

example : |(transformVec2 ![fl64 3, fl64 4] turn64 0).1 - (-4 + 5)| ≤ 1 / 10 ^ 10 := by
  have hm : DescribesPlanar turn64.vals !![0, -1; 1, 0] ![5, 7] := by
    refine ⟨?_, ?_⟩
    · intro i j; fin_cases i <;> fin_cases j <;> simp [HMat.vals, turn64, fl64_val]
    · intro i; fin_cases i <;> simp [HMat.vals, turn64, fl64_val]
  have h := C106_planar ![fl64 3, fl64 4] turn64 hm (by show 9 ≤ 53; norm_num) (ω := 1 / 10 ^ 20) (by norm_num) emin64' 0
  simp only [Fin.sum_univ_two, Matrix.of_apply, Matrix.cons_val_zero, Matrix.cons_val_one, fl64_val] at h
  have hu := unit64'
  generalize (2 : ℝ)⁻¹ ^ binary64.prec = u at h hu
  norm_num at h hu ⊢
  refine h.trans ?_
  linarith
end Examples
end Verif
