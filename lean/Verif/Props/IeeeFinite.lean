import Verif.Props.IeeeNan
import Verif.Props.FloatDistance
import Verif.Props.FloatNormal
import Verif.Props.FloatPlane
import Verif.Props.FloatTransform
import Verif.Props.FloatKdTree

set_option linter.unusedSectionVars false

/-
Property C120: lengths, directions, distances and normals in IEEE arithmetic, with overflow.
-/
namespace Verif
open Spec
namespace Ieee
variable {F : IeeeFormat} {D : Nat}

/-- A finite number of size at most `2 ^ k`. -/
def AtMost (k : ℕ) (a : Ieee F) : Prop := ∃ r, a.val? = some r ∧ |r| ≤ 2 ^ k

theorem AtMost.near {k : ℕ} {a : Ieee F} (h : AtMost k a) : Near k a (toFl a) := by
  obtain ⟨r, h1, h2⟩ := h
  cases a <;> simp only [val?, Option.some.injEq, reduceCtorEq] at h1 <;> subst h1
  · exact ⟨rfl, h2⟩
  · exact ⟨rfl, h2⟩

theorem NearVec.reals {k : ℕ} {v : Vec (Ieee F) D} {x : Vec (Fl F.toFloatFormat) D} (h : NearVec k v x) : reals v = fun i => (x i).1 := by
  funext i
  show (v i).val?.getD 0 = _
  rw [(h i).val]; rfl

theorem atMost_reals {k : ℕ} {v : Vec (Ieee F) D} (h : ∀ i, AtMost k (v i)) : Ieee.reals v = fun i => (flOf v i).1 :=
  NearVec.reals (k := k) (fun i => (h i).near)

/-- Only the size of the rounded result matters. -/
theorem ofReal_near' {s : Bool} {r : ℝ} {k : ℕ} (h : |F.rnd r| ≤ 2 ^ k) (hk : k < F.emax) : Near k (ofReal (F := F) s r) (Fl.round r) := by
  have h1 : |F.rnd r| < 2 ^ F.emax := lt_of_le_of_lt h (pow_lt_pow' hk)
  rcases ofReal_cases (F := F) s r with ⟨q, h2, h3⟩ | ⟨_, _, h3⟩
  · exact ⟨by rw [h2, h3]; rfl, h⟩
  · exact absurd h1 h3

theorem Near.div' {i j m : ℕ} {a b : Ieee F} {x y : Fl F.toFloatFormat} (ha : Near i a x) (hb : Near j b y) (hy : y.1 ≠ 0)
    (h : |(x / y).1| ≤ 2 ^ m) (hk : m < F.emax) : Near m (a / b) (x / y) := by
  obtain ⟨s, hs⟩ := div_def ha.val hb.val hy
  rw [hs]
  exact ofReal_near' h hk

theorem Near.of_like {k : ℕ} {a b : Ieee F} {x : Fl F.toFloatFormat} (h : Near k a x) (hl : Like a b) : Near k b x := by
  refine ⟨?_, h.le⟩
  rcases hl with ⟨rfl, rfl⟩ | ⟨s, rfl, rfl⟩ | ⟨r, h1, h2⟩
  · exact h.val
  · exact h.val
  · rw [h2, ← h1, h.val]

theorem dot_self_nonneg (x : Vec (Fl F.toFloatFormat) D) : 0 ≤ (dot x x).1 := by
  unfold dot
  suffices h : ∀ n (f : Fin n → Fl F.toFloatFormat), 0 ≤ (Fin.foldl n (fun s i => s + f i * f i) 0).1 from h D x
  intro n
  induction n with
  | zero => intro f; exact le_refl (0 : ℝ)
  | succ n ih =>
    intro f
    rw [Fin.foldl_succ_last]
    exact F.rounds.nonneg (add_nonneg (ih fun i => f i.castSucc) (F.rounds.nonneg (mul_self_nonneg _)))

theorem NearVec.length {k : ℕ} {a : Vec (Ieee F) D} {x : Vec (Fl F.toFloatFormat) D} (h : NearVec k a x) (hk : 2 * k + D < F.emax) :
    Near (k + D) (Verif.length a) (Verif.length x) := by
  refine Near.sqrt (k := k + k + D) (h.dot h (by omega)) (dot_self_nonneg x) (by omega) (by omega)

theorem NearVec.cross {i j : ℕ} {a b : Vec (Ieee F) 3} {x y : Vec (Fl F.toFloatFormat) 3} (ha : NearVec i a x) (hb : NearVec j b y)
    (hk : i + j + 1 < F.emax) : NearVec (i + j + 1) (cross a b) (cross x y) := by
  intro l
  unfold Verif.cross
  split_ifs
  · exact ((ha _).mul (hb _) (by omega)).sub ((ha _).mul (hb _) (by omega)) hk
  · exact ((ha _).mul (hb _) (by omega)).sub ((ha _).mul (hb _) (by omega)) hk
  · exact ((ha _).mul (hb _) (by omega)).sub ((ha _).mul (hb _) (by omega)) hk

/-- The squared length of the direction has to be at least 1/8. -/
theorem NearVec.rejection {i j : ℕ} {a b : Vec (Ieee F) D} {x y : Vec (Fl F.toFloatFormat) D} (ha : NearVec i a x) (hb : NearVec j b y)
    (hy : 1 ≤ (Verif.dot y y).1 * 2 ^ 3) (hk : i + 2 * j + D + 4 < F.emax) (hj : 2 * j + D < F.emax) :
    NearVec (i + 2 * j + D + 4) (Verif.rejection a b) (Verif.rejection x y) := by
  have h1 : Near (i + j + D) (Verif.dot a b) (Verif.dot x y) := ha.dot hb (by omega)
  have h2 : Near (j + j + D) (Verif.dot b b) (Verif.dot y y) := hb.dot hb (by omega)
  have h3 : Near (i + j + D + 3) (Verif.dot a b / Verif.dot b b) (Verif.dot x y / Verif.dot y y) := h1.div h2 (by rw [abs_of_nonneg (dot_self_nonneg y)]; exact hy) (by omega)
  have h4 := hb.vscale h3 (by omega)
  refine NearVec.mono ((ha.mono (by omega : i ≤ i + 2 * j + D + 3)).vsub (h4.mono (by omega)) (by omega)) (by omega)

theorem abs_le_norm (d : Vec ℝ D) (i : Fin D) : |d i| ≤ Spec.norm d := by
  unfold Spec.norm
  rw [← Real.sqrt_sq_eq_abs]
  exact Real.sqrt_le_sqrt (Finset.single_le_sum (f := fun i => d i ^ 2) (fun i _ => sq_nonneg _) (Finset.mem_univ i))

/-- The computed square of a vector of length at least 1/2. -/
theorem dot_self_lower {F : FloatFormat} (d : Vec (Fl F) D) (hD : 64 * (D + 2) ≤ 2 ^ F.prec) (ht : F.tiny ≤ F.unit * F.unit)
    (hd : 1 / 2 ≤ Spec.norm (fun i => (d i).1)) : 1 ≤ (dot d d).1 * 2 ^ 3 := by
  obtain ⟨f1, f2, f3, f4⟩ := dim_facts hD ht
  have hu0 := F.unit_pos
  have h := dot_abs d d (fun i => (d i).1) (fun i => by rw [sub_self, abs_zero]; positivity) hD ht
  change |_ - _| ≤ 8 / 5 * (_ * (Spec.norm (fun i => (d i).1) * Spec.norm (fun i => (d i).1))) + _ at h
  have e : ∑ i, (d i).1 * (d i).1 = Spec.norm (fun i => (d i).1) ^ 2 := by
    rw [norm_sq']; exact Finset.sum_congr rfl fun i _ => (pow_two _).symm
  rw [e] at h
  set N := Spec.norm (fun i => (d i).1)
  have h1 := (abs_le.1 h).1
  have h2 : ((D : ℝ) + 2) * F.unit * (N * N) ≤ 1 / 64 * (N * N) := mul_le_mul_of_nonneg_right f2 (by positivity)
  nlinarith
end Ieee
open Ieee

/-! ### Distances -/
section
variable {F : IeeeFormat} {D : Nat}

theorem norm_flOf {k : ℕ} {d : Vec (Ieee F) D} (hf : ∀ i, AtMost k (d i)) : Spec.norm (reals d) = Spec.norm (fun i => (flOf d i).1) := by
  rw [atMost_reals hf]

/-- A direction of length at most two. -/
theorem near_direction {d : Vec (Ieee F) D} (hf : ∀ i, ∃ r, (d i).val? = some r) (h2 : Spec.norm (reals d) ≤ 2) : ∀ i, AtMost 1 (d i) := by
  intro i
  obtain ⟨r, hr⟩ := hf i
  refine ⟨r, hr, ?_⟩
  have := abs_le_norm (reals d) i
  have e : reals d i = r := by show (d i).val?.getD 0 = r; rw [hr]; rfl
  rw [e] at this
  linarith

/-- **C120** The distance of a point and a line, in IEEE arithmetic: for coordinates up to `2 ^ k` nothing overflows, and C104 holds. -/
theorem C120_point_line_partial (k : ℕ) (hk : 2 * k + 3 * D + 14 < F.emax) (v : Vec (Ieee F) D) (l : Line (Ieee F) D)
    (hv : ∀ i, AtMost k (v i)) (ho : ∀ i, AtMost k (l.origin i)) (hd : ∀ i, ∃ r, (l.direction i).val? = some r)
    (hD : 64 * (D + 2) ≤ 2 ^ F.prec) (hmin : ∀ k, F.emin = some k → k ≤ -2 * (F.prec : ℤ))
    (hd1 : 1 / 2 ≤ Spec.norm (reals l.direction)) (hd2 : Spec.norm (reals l.direction) ≤ 2)
    {ω : ℝ} (hω : 0 ≤ ω) (hω2 : ∀ k, F.emin = some k → 2 * (D + 2) * (2 : ℝ) ^ k ≤ ω ^ 2) :
    ∃ x δ, (distVecLine v l).val? = some x ∧ Spec.IsDistance {reals v} (Spec.line (reals l.origin) (reals l.direction)) δ ∧
      |x - δ| ≤ 8 * (D + 2) * (2 : ℝ)⁻¹ ^ F.prec * Spec.dist (reals v) (reals l.origin) + 3 * ω := by
  have hd' := near_direction hd hd2
  have nv : NearVec k v (flOf v) := fun i => (hv i).near
  have no : NearVec k l.origin (flOf l.origin) := fun i => (ho i).near
  have nd : NearVec 1 l.direction (flOf l.direction) := fun i => (hd' i).near
  rw [nd.reals] at hd1 hd2 ⊢
  rw [nv.reals, no.reals]
  obtain ⟨δ, h1, h2⟩ := C104_point_line (flOf v) ⟨flOf l.origin, flOf l.direction⟩ hD hmin hd1 hd2 hω hω2
  refine ⟨_, δ, ?_, h1, h2⟩
  have hlow := dot_self_lower (flOf l.direction) hD (tiny_of_emin hmin) hd1
  exact (NearVec.length ((no.vsub nv (by omega)).rejection nd hlow (by omega) (by omega)) (by omega)).val

/-- **C120** The distance of a point and a ray, likewise; `τ` is the tolerance of the comparison with zero. -/
theorem C120_point_ray_partial [Tol (Ieee F)] (k : ℕ) (hk : 2 * k + 3 * D + 14 < F.emax) (v : Vec (Ieee F) D) (r : Ray (Ieee F) D)
    (hv : ∀ i, AtMost k (v i)) (ho : ∀ i, AtMost k (r.origin i)) (hd : ∀ i, ∃ x, (r.direction i).val? = some x)
    (hD : 64 * (D + 2) ≤ 2 ^ F.prec) (hmin : ∀ k, F.emin = some k → k ≤ -2 * (F.prec : ℤ))
    (hd1 : 1 / 2 ≤ Spec.norm (reals r.direction)) (hd2 : Spec.norm (reals r.direction) ≤ 2)
    {τ : ℝ} (hτ : 0 ≤ τ) (hgt : ∀ (a : Ieee F) x, a.val? = some x → isGreater a 0 = true → 0 ≤ x)
    (hle : ∀ (a : Ieee F) x, a.val? = some x → isGreater a 0 = false → x ≤ τ)
    {ω : ℝ} (hω : 0 ≤ ω) (hω2 : ∀ k, F.emin = some k → 2 * (D + 2) * (2 : ℝ) ^ k ≤ ω ^ 2) :
    ∃ x δ, (distRayVec r v).val? = some x ∧ Spec.IsDistance {reals v} (Spec.ray (reals r.origin) (reals r.direction)) δ ∧
      |x - δ| ≤ 10 * (D + 2) * (2 : ℝ)⁻¹ ^ F.prec * Spec.dist (reals v) (reals r.origin) + 2 * τ + 4 * ω := by
  classical
  have hd' := near_direction hd hd2
  have nv : NearVec k v (flOf v) := fun i => (hv i).near
  have no : NearVec k r.origin (flOf r.origin) := fun i => (ho i).near
  have nd : NearVec 1 r.direction (flOf r.direction) := fun i => (hd' i).near
  rw [nd.reals] at hd1 hd2 ⊢
  rw [nv.reals, no.reals]
  have hlow := dot_self_lower (flOf r.direction) hD (tiny_of_emin hmin) hd1
  have n1 := nv.vsub no (by omega)
  have nd' := n1.dot nd (by omega)
  -- the comparisons that are made, as comparisons of numbers
  let tol : Tol (Fl F.toFloatFormat) :=
    { eps := 0, isLess := fun _ _ _ => false, isLessEq := fun _ _ _ => false, isGreaterEq := fun _ _ _ => false, isEq := fun _ _ _ => false, isZero := fun _ _ => false
      isGreater := fun x _ _ => if x = dot (vsub (flOf v) (flOf r.origin)) (flOf r.direction) then isGreater (dot (vsub v r.origin) r.direction) 0 else decide (0 < x.1) }
  obtain ⟨δ, h1, h2⟩ := C104_point_ray (flOf v) ⟨flOf r.origin, flOf r.direction⟩ hD hmin hd1 hd2 hτ (by
      intro x hx
      change (if x = _ then _ else _) = true at hx
      split_ifs at hx with h
      · rw [h]; exact hgt _ _ nd'.val hx
      · exact (of_decide_eq_true hx).le) (by
      intro x hx
      change (if x = _ then _ else _) = false at hx
      split_ifs at hx with h
      · rw [h]; exact hle _ _ nd'.val hx
      · exact (not_lt.1 (of_decide_eq_false hx)).trans hτ) hω hω2
  refine ⟨_, δ, ?_, h1, h2⟩
  have hcmp : isGreater (dot (vsub (flOf v) (flOf r.origin)) (flOf r.direction)) 0 = isGreater (dot (vsub v r.origin) r.direction) 0 := if_pos rfl
  unfold distRayVec
  simp only [hcmp]
  split_ifs
  · exact (NearVec.length (n1.rejection nd hlow (by omega) (by omega)) (by omega)).val
  · exact (NearVec.length (no.vsub nv (by omega)) (by omega)).val

/-- **C120** The distance of a point and a plane, likewise. -/
theorem C120_point_plane_partial (k : ℕ) (hk : k + 5 < F.emax) (v : Vec (Ieee F) 3) (p : Plane (Ieee F))
    (hv : ∀ i, AtMost k (v i)) (ho : ∀ i, AtMost k (p.origin i)) (hn : ∀ i, ∃ r, (p.normal i).val? = some r)
    (hp : 9 ≤ F.prec) (hmin : ∀ k, F.emin = some k → k ≤ -2 * (F.prec : ℤ))
    {η : ℝ} (hη : |Spec.norm (reals p.normal) - 1| ≤ η) (hη1 : η ≤ 1 / 2)
    {ω : ℝ} (hω : 0 ≤ ω) (hω2 : ∀ k, F.emin = some k → (2 : ℝ) ^ k ≤ ω) :
    ∃ x δ, (distPlaneVec p v).val? = some x ∧ Spec.IsDistance {reals v} (Spec.plane (reals p.origin) (reals p.normal)) δ ∧
      |x - δ| ≤ 12 * (2 : ℝ)⁻¹ ^ F.prec * Spec.dist (reals v) (reals p.origin) + η * δ + 10 * ω := by
  have hn' := near_direction hn (by linarith [(abs_le.1 hη).2])
  have nv : NearVec k v (flOf v) := fun i => (hv i).near
  have no : NearVec k p.origin (flOf p.origin) := fun i => (ho i).near
  have nn : NearVec 1 p.normal (flOf p.normal) := fun i => (hn' i).near
  rw [nn.reals] at hη ⊢
  rw [nv.reals, no.reals]
  obtain ⟨δ, h1, h2⟩ := C104_point_plane (flOf v) ⟨flOf p.origin, flOf p.normal⟩ hp hmin hη hη1 hω hω2
  exact ⟨_, δ, ((no.vsub nv (by omega)).dot nn (by omega)).stdAbs.val, h1, h2⟩

/-- **C120** The signed distance of a point and a sphere, likewise. -/
theorem C120_point_sphere_partial (k : ℕ) (hk : 2 * k + 5 < F.emax) (v : Vec (Ieee F) 3) (s : Sphere (Ieee F)) (R : ℝ)
    (hv : ∀ i, AtMost k (v i)) (ho : ∀ i, AtMost k (s.origin i)) (hr : s.radius.val? = some R) (hR : |R| ≤ 2 ^ k)
    (hp : 9 ≤ F.prec) (hmin : ∀ k, F.emin = some k → k ≤ -2 * (F.prec : ℤ))
    {ω : ℝ} (hω : 0 ≤ ω) (hω2 : ∀ k, F.emin = some k → 10 * (2 : ℝ) ^ k ≤ ω ^ 2) :
    ∃ x, (signedDistSphere v s).val? = some x ∧ (distSphere v s).val? = some |x| ∧
      |x - (Spec.dist (reals v) (reals s.origin) - R)|
        ≤ (2 : ℝ)⁻¹ ^ F.prec * (12 * Spec.dist (reals v) (reals s.origin) + |Spec.dist (reals v) (reals s.origin) - R|) + 3 * ω := by
  have nv : NearVec k v (flOf v) := fun i => (hv i).near
  have no : NearVec k s.origin (flOf s.origin) := fun i => (ho i).near
  have nr : Ieee.Near k s.radius (toFl s.radius) := AtMost.near ⟨R, hr, hR⟩
  have hRe : (toFl s.radius).1 = R := by have := nr.val; rw [hr] at this; exact (Option.some.inj this).symm
  rw [nv.reals, no.reals, ← hRe]
  obtain ⟨h1, h2⟩ := C104_point_sphere (flOf v) ⟨flOf s.origin, toFl s.radius⟩ hp hmin hω hω2
  have n1 : Ieee.Near (k + 5) (signedDistSphere v s) (signedDistSphere (flOf v) ⟨flOf s.origin, toFl s.radius⟩) :=
    ((NearVec.length (nv.vsub no (by omega)) (by omega)).mono (by omega : k + 1 + 3 ≤ k + 4)).sub (nr.mono (by omega)) (by omega)
  refine ⟨_, n1.val, ?_, h1⟩
  rw [← h2]
  exact n1.stdAbs.val

/-! ### Planes and lines -/

/-- The computed scalar product of two directions that are not nearly perpendicular. -/
theorem dirDot_lower {F : FloatFormat} (d n : Vec (Fl F) 3) (hp : 9 ≤ F.prec) (hmin : ∀ k, F.emin = some k → k < -2 * (F.prec : ℤ))
    (hn : |Spec.norm (fun i => (n i).1) - 1| ≤ 1 / 32) (hd : |Spec.norm (fun i => (d i).1) - 1| ≤ 1 / 32) {s : ℝ} (hs0 : 0 < s)
    (hs : s * Spec.norm (fun i => (d i).1) ≤ |∑ i, (d i).1 * (n i).1|) (hu : 64 * (2 : ℝ)⁻¹ ^ F.prec ≤ s) : s / 2 ≤ |(dot d n).1| := by
  have hD : 64 * (3 + 2) ≤ 2 ^ F.prec := le_trans (by norm_num) (Nat.pow_le_pow_right (by norm_num) hp)
  have ht : F.tiny ≤ F.unit * F.unit := tiny_of_emin fun k hk => (hmin k hk).le
  have hu0 := F.unit_pos
  obtain ⟨f1, f2, f3, f4⟩ := dim_facts (D := 3) hD ht
  have h := dot_abs d n (fun i => (d i).1) (fun i => by rw [sub_self, abs_zero]; positivity) hD ht
  change |_ - _| ≤ 8 / 5 * (_ * (Spec.norm (fun i => (d i).1) * Spec.norm (fun i => (n i).1))) + _ at h
  push_cast at h f2 f4
  change 64 * F.unit ≤ s at hu
  obtain ⟨n1, n2⟩ := abs_le.1 hn
  obtain ⟨d1, d2⟩ := abs_le.1 hd
  set N := Spec.norm (fun i => (n i).1)
  set M := Spec.norm (fun i => (d i).1)
  have h1 : M * N ≤ 9 / 8 := by nlinarith
  have h2 : F.unit * (M * N) ≤ F.unit * (9 / 8) := mul_le_mul_of_nonneg_left h1 hu0.le
  have h3 : s * (31 / 32) ≤ s * M := mul_le_mul_of_nonneg_left (by linarith) hs0.le
  have h4 := abs_sub_abs_le_abs_sub (∑ i, (d i).1 * (n i).1) (dot d n).1
  rw [abs_sub_comm] at h4
  linarith

/-- **C120** The common point of a plane and a line in IEEE arithmetic: C105 holds for coordinates up to `2 ^ k` and angles whose sine is at least `2 ^ (1 - j)`. -/
theorem C120_plane_line_partial [Tol (Ieee F)] (k j : ℕ) (hk : k + j + 7 < F.emax) (p : Plane (Ieee F)) (l : Line (Ieee F) 3) (e : Ieee F)
    (hpo : ∀ i, AtMost k (p.origin i)) (hlo : ∀ i, AtMost k (l.origin i)) (hpn : ∀ i, ∃ x, (p.normal i).val? = some x) (hld : ∀ i, ∃ x, (l.direction i).val? = some x)
    (hp : 9 ≤ F.prec) (hmin : ∀ k, F.emin = some k → k < -2 * (F.prec : ℤ))
    (hn : |Spec.norm (reals p.normal) - 1| ≤ 1 / 32) (hd : |Spec.norm (reals l.direction) - 1| ≤ 1 / 32)
    {s ω : ℝ} (hs0 : 0 < s) (hs : s * Spec.norm (reals l.direction) ≤ |∑ i, reals l.direction i * reals p.normal i|)
    (hj : 2 ≤ s * 2 ^ j) (hu : 64 * (2 : ℝ)⁻¹ ^ F.prec ≤ s) (hω0 : 0 ≤ ω) (hω : ∀ k, F.emin = some k → (2 : ℝ) ^ k * (1 / s + 3) ≤ ω)
    (hz : ∀ (a : Ieee F) x, a.val? = some x → 1 / 2 * s ≤ |x| → Tol.isZero a e = false) :
    ∃ q x, intersectPlaneLine p l e = some q ∧ (∀ i, ∃ r, (q i).val? = some r) ∧
      Spec.plane (reals p.origin) (reals p.normal) ∩ Spec.line (reals l.origin) (reals l.direction) = {x} ∧
      (∀ i, |reals q i - x i| ≤ (2 : ℝ)⁻¹ ^ F.prec * |x i| + 26 * ((2 : ℝ)⁻¹ ^ F.prec / s * (Spec.dist (reals p.origin) (reals l.origin) / s)) + 17 * ω) ∧
      ∃ δ, Spec.IsDistance {reals q} (Spec.plane (reals p.origin) (reals p.normal)) δ ∧
        δ ≤ (2 : ℝ)⁻¹ ^ F.prec * (2 * ∑ i, |x i| + 36 * (Spec.dist (reals p.origin) (reals l.origin) / s)) + 20 * ω := by
  have hd' := near_direction hld (by linarith [(abs_le.1 hd).2])
  have hn' := near_direction hpn (by linarith [(abs_le.1 hn).2])
  have npo : NearVec k p.origin (flOf p.origin) := fun i => (hpo i).near
  have nlo : NearVec k l.origin (flOf l.origin) := fun i => (hlo i).near
  have nn : NearVec 1 p.normal (flOf p.normal) := fun i => (hn' i).near
  have nd : NearVec 1 l.direction (flOf l.direction) := fun i => (hd' i).near
  rw [nn.reals] at hn hs ⊢
  rw [nd.reals] at hd hs ⊢
  rw [npo.reals, nlo.reals]
  let tol : Tol (Fl F.toFloatFormat) :=
    { eps := 0, isLess := fun _ _ _ => false, isLessEq := fun _ _ _ => false, isGreaterEq := fun _ _ _ => false, isEq := fun _ _ _ => false, isZero := fun _ _ => false
      isGreater := fun _ _ _ => false }
  obtain ⟨q, x, h1, h2, h3, h4⟩ := C105_plane_line ⟨flOf p.origin, flOf p.normal⟩ ⟨flOf l.origin, flOf l.direction⟩ 0 hp hmin hn hd hs0 hs hu hω0 hω (fun _ _ => rfl)
  have hlow := dirDot_lower (flOf l.direction) (flOf p.normal) hp hmin hn hd hs0 hs hu
  have n1 := nd.dot nn (by omega)
  have n2 := (npo.vsub nlo (by omega)).dot nn (by omega)
  have n3 := n2.div n1 (j := j) (by nlinarith [show (0 : ℝ) < 2 ^ j by positivity]) (by omega)
  have n4 := nd.vscale n3 (by omega)
  have n5 := ((nlo.mono (by omega : k ≤ k + j + 6)).vadd (n4.mono (by omega)) (by omega))
  have hq : q = vadd (flOf l.origin) (vscale (flOf l.direction) (dot (vsub (flOf p.origin) (flOf l.origin)) (flOf p.normal) / dot (flOf l.direction) (flOf p.normal))) := by
    unfold intersectPlaneLine at h1
    exact (Option.some.inj h1).symm
  refine ⟨_, x, ?_, fun i => ⟨_, (n5 i).val⟩, h2, ?_, ?_⟩
  · unfold intersectPlaneLine
    simp only [hz _ _ n1.val (by linarith)]
    rfl
  · rw [n5.reals, ← hq]; exact h3
  · rw [n5.reals, ← hq]; exact h4

/-! ### Transformations -/

/-- **C120** The image of a point in IEEE arithmetic: C106 holds for coordinates up to `2 ^ k` and matrix entries up to `2 ^ j`. -/
theorem C120_transform_partial (k j : ℕ) (hk : k + j + 4 < F.emax) (v : Vec (Ieee F) 3) (m : HMat (Ieee F)) (hv : ∀ i, AtMost k (v i)) (hm : ∀ a b, AtMost j (m a b))
    {A : Matrix (Fin 3) (Fin 3) ℝ} {b : Vec ℝ 3} (hA : Describes (fun a b => reals (m a) b) A b)
    (hp : 9 ≤ F.prec) {ω : ℝ} (hω : 0 ≤ ω) (hω2 : ∀ k, F.emin = some k → (2 : ℝ) ^ k ≤ ω) (i : Fin 3) :
    ∃ x, (transformVec v m i).val? = some x ∧
      |x - (∑ j, A i j * reals v j + b i)| ≤ 6 * (2 : ℝ)⁻¹ ^ F.prec * (∑ j, |A i j * reals v j| + |b i|) + 5 * ω := by
  have nv : NearVec k v (flOf v) := fun i => (hv i).near
  have nm : ∀ a, NearVec j (m a) (flOf (m a)) := fun a i => (hm a i).near
  have hA' : Describes (HMat.vals fun a => flOf (m a)) A b := by
    have e : (fun a b => reals (m a) b) = HMat.vals fun a => flOf (m a) := by
      funext a; exact (nm a).reals
    rwa [e] at hA
  rw [nv.reals]
  refine ⟨_, ?_, C106_point (flOf v) (fun a => flOf (m a)) hA' hp hω hω2 i⟩
  have nh : NearVec k (toHvec v) (toHvec (flOf v)) := by
    intro l
    unfold toHvec
    split_ifs
    · exact near_one.mono (by omega)
    · exact nv _
    · exact near_zero.mono (by omega)
  exact ((nm i.castSucc).dot nh (by omega)).val

/-! ### Segments -/

/-- **C120** The length of a segment in IEEE arithmetic: C95 holds for coordinates up to `2 ^ k`. -/
theorem C120_segment_length_partial (k : ℕ) (hk : 2 * (k + 1) + D < F.emax) (s : Segment (Ieee F) D)
    (hs : ∀ i, AtMost k (s.source i)) (ht : ∀ i, AtMost k (s.target i)) (hD : 64 * (D + 2) ≤ 2 ^ F.prec)
    (hH0 : 0 < Spec.dist (reals s.target) (reals s.source))
    (hsmall : ∀ k, F.emin = some k → k ≤ -2 * (F.prec : ℤ) ∧
      (2 : ℝ) ^ ((k + 1) / 2) ≤ (2 : ℝ)⁻¹ ^ F.prec * Spec.dist (reals s.target) (reals s.source)) :
    ∃ x, s.length.val? = some x ∧
      |x - Spec.dist (reals s.target) (reals s.source)| ≤ (D + 4) * (2 : ℝ)⁻¹ ^ F.prec * Spec.dist (reals s.target) (reals s.source) := by
  have ns : NearVec k s.source (flOf s.source) := fun i => (hs i).near
  have nt : NearVec k s.target (flOf s.target) := fun i => (ht i).near
  rw [ns.reals, nt.reals] at hH0 hsmall ⊢
  exact ⟨_, (NearVec.length (nt.vsub ns (by omega)) (by omega)).val, C95_length ⟨flOf s.source, flOf s.target⟩ hD hH0 hsmall⟩

/-- **C120** The direction of a segment in IEEE arithmetic, likewise. -/
theorem C120_segment_direction_partial (k : ℕ) (hk : 2 * (k + 1) + D < F.emax) (s : Segment (Ieee F) D)
    (hs : ∀ i, AtMost k (s.source i)) (ht : ∀ i, AtMost k (s.target i)) (hD : 64 * (D + 2) ≤ 2 ^ F.prec)
    (hH0 : 0 < Spec.dist (reals s.target) (reals s.source))
    (hsmall : ∀ k, F.emin = some k → k ≤ -2 * (F.prec : ℤ) ∧
      (2 : ℝ) ^ ((k + 1) / 2) ≤ (2 : ℝ)⁻¹ ^ F.prec * Spec.dist (reals s.target) (reals s.source)) (i : Fin D) :
    ∃ x, (s.direction i).val? = some x ∧
      |x - (reals s.target i - reals s.source i) / Spec.dist (reals s.target) (reals s.source)| ≤ (2 * D + 7) * (2 : ℝ)⁻¹ ^ F.prec := by
  have ns : NearVec k s.source (flOf s.source) := fun i => (hs i).near
  have nt : NearVec k s.target (flOf s.target) := fun i => (ht i).near
  rw [ns.reals, nt.reals] at hH0 hsmall ⊢
  have h1 := C95_length ⟨flOf s.source, flOf s.target⟩ hD hH0 hsmall
  have h2 := (C95_direction ⟨flOf s.source, flOf s.target⟩ hD hH0 hsmall).1 i
  set s' : Segment (Fl F.toFloatFormat) D := ⟨flOf s.source, flOf s.target⟩
  have nl : Ieee.Near (k + 1 + D) s.length s'.length := NearVec.length (nt.vsub ns (by omega)) (by omega)
  refine ⟨(s'.direction i).1, ?_, h2⟩
  obtain ⟨hDu, hu⟩ := dim_unit (F := F.toFloatFormat) hD
  have hu0 := F.unit_pos
  change _ ≤ ((D : ℝ) + 4) * F.unit * _ at h1
  change |(s'.direction i).1 - _| ≤ (2 * (D : ℝ) + 7) * F.unit at h2
  change 0 < Spec.dist (fun i => (s'.target i).1) fun i => (s'.source i).1 at hH0
  set H := Spec.dist (fun i => (s'.target i).1) fun i => (s'.source i).1 with hH
  have hL : s'.length.1 ≠ 0 := by
    intro hc
    rw [hc] at h1
    have h3 := (abs_le.1 h1).1
    have h4 : ((D : ℝ) + 4) * F.unit * H ≤ 1 / 2 * H := mul_le_mul_of_nonneg_right (by linarith) hH0.le
    linarith
  have hb : |((s'.target i).1 - (s'.source i).1) / H| ≤ 1 := by
    rw [abs_div, abs_of_pos hH0, div_le_one hH0]
    exact abs_le_norm (fun i => (s'.target i).1 - (s'.source i).1) i
  have hsz : |(s'.direction i).1| ≤ 2 ^ 1 := by
    have h3 := abs_sub_abs_le_abs_sub (s'.direction i).1 (((s'.target i).1 - (s'.source i).1) / H)
    have h4 : (2 * (D : ℝ) + 7) * F.unit ≤ 1 / 2 := by linarith
    change |(s'.direction i).1 - ((s'.target i).1 - (s'.source i).1) / H| ≤ _ at h2
    rw [pow_one]
    linarith
  exact (Near.div' ((nt.vsub ns (by omega)) i) nl hL hsz F.one_lt_emax).val
end

/-! ### Facet normals -/
section
variable {F : IeeeFormat}

theorem normalOf_near {k : ℕ} (hk : 4 * k + 9 < F.emax) {t : Vec (Ieee F) 3 × Vec (Ieee F) 3 × Vec (Ieee F) 3} {t' : Vec (Fl F.toFloatFormat) 3 × Vec (Fl F.toFloatFormat) 3 × Vec (Fl F.toFloatFormat) 3}
    (h0 : NearVec k t.1 t'.1) (h1 : NearVec k t.2.1 t'.2.1) (h2 : NearVec k t.2.2 t'.2.2)
    (hL : (length (cross (vsub t'.2.1 t'.1) (vsub t'.2.2 t'.2.1))).1 ≠ 0) (hn : ∀ i, |(normalOf t' i).1| ≤ 2) :
    NearVec 1 (normalOf t) (normalOf t') := by
  have nc := NearVec.cross (h1.vsub h0 (by omega)) (h2.vsub h1 (by omega)) (by omega)
  intro i
  exact Near.div' (nc i) (nc.length (by omega)) hL (by rw [pow_one]; exact hn i) F.one_lt_emax

/-- The triangle with the coordinates as real numbers. -/
noncomputable def realTriangle (t : Vec (Ieee F) 3 × Vec (Ieee F) 3 × Vec (Ieee F) 3) : Vec ℝ 3 × Vec ℝ 3 × Vec ℝ 3 := mapTriangle reals t

/-- **C120** The normal of a facet in IEEE arithmetic: C111 holds for coordinates up to `2 ^ k`. -/
theorem C120_facet_partial (k : ℕ) (hk : 4 * k + 9 < F.emax) (dbg : Bool) (M : Nat) (ts : List (Vec (Ieee F) 3 × Vec (Ieee F) 3 × Vec (Ieee F) 3))
    (hM : 3 * ts.length < M) (m : HalfedgeMesh (Vec (Ieee F) 3)) (hb : BuiltFrom dbg M ts m) (hp : 9 ≤ F.prec) (j : Nat) (hj : j < ts.length)
    (hf : ∀ i, AtMost k (ts[j].1 i) ∧ AtMost k (ts[j].2.1 i) ∧ AtMost k (ts[j].2.2 i))
    (hA0 : 0 < twiceArea (realTriangle ts[j]))
    (hsmall : ∀ k, F.emin = some k → k ≤ -2 * (F.prec : ℤ) ∧ (2 : ℝ) ^ ((k + 1) / 2) ≤ (2 : ℝ)⁻¹ ^ F.prec * (twiceArea (realTriangle ts[j]) / 2))
    (hshape : 16 * ((2 : ℝ)⁻¹ ^ F.prec * sidesProduct (realTriangle ts[j])) ≤ twiceArea (realTriangle ts[j])) :
    ∃ f n' n, vecGet m.facets j = .ok f ∧ calcFacetNormal m f = .ok n' ∧ (∀ i, ∃ r, (n' i).val? = some r) ∧ IsNormal (realTriangle ts[j]) n ∧
      Spec.dist (reals n') n ≤ 21 * (2 : ℝ)⁻¹ ^ F.prec * (sidesProduct (realTriangle ts[j]) / twiceArea (realTriangle ts[j])) ∧
      |Spec.norm (reals n') - 1| ≤ 8 * (2 : ℝ)⁻¹ ^ F.prec := by
  obtain ⟨o, rfl⟩ := hb.eq hM
  have hl : (weld (corners ts)).2.length = 3 * ts.length := by rw [weld_length, corners_length]
  have n0 : NearVec k ts[j].1 (flOf ts[j].1) := fun i => (hf i).1.near
  have n1 : NearVec k ts[j].2.1 (flOf ts[j].2.1) := fun i => (hf i).2.1.near
  have n2 : NearVec k ts[j].2.2 (flOf ts[j].2.2) := fun i => (hf i).2.2.near
  set t' : Vec (Fl F.toFloatFormat) 3 × Vec (Fl F.toFloatFormat) 3 × Vec (Fl F.toFloatFormat) 3 := mapTriangle flOf ts[j] with ht'
  have e : realTriangle ts[j] = trueTriangle t' := by
    show (reals ts[j].1, reals ts[j].2.1, reals ts[j].2.2) = _
    rw [n0.reals, n1.reals, n2.reals]; rfl
  rw [e] at hA0 hsmall hshape ⊢
  obtain ⟨h1, h2, h3⟩ := normalOf_err t' hp hA0 hsmall hshape
  obtain ⟨p0, p1, p2, r0, r1, r2, hn⟩ := calcFacetNormal_rep o ts j hj
  have m0 : NearVec k p0 t'.1 := fun i => (n0 i).of_like (rep_like r0 i).symm
  have m1 : NearVec k p1 t'.2.1 := fun i => (n1 i).of_like (rep_like r1 i).symm
  have m2 : NearVec k p2 t'.2.2 := fun i => (n2 i).of_like (rep_like r2 i).symm
  have hu : (2 : ℝ)⁻¹ ^ F.prec ≤ 1 / 8 := by
    calc (2 : ℝ)⁻¹ ^ F.prec ≤ 2⁻¹ ^ 3 := pow_le_pow_of_le_one (by norm_num) (by norm_num) (by omega)
      _ = 1 / 8 := by norm_num
  have hsz : ∀ i, |(normalOf t' i).1| ≤ 2 := fun i => by
    have := abs_le_norm (Fl.vals (normalOf t')) i
    have h4 := (abs_le.1 h3).2
    change |(normalOf t' i).1| ≤ _ at this
    linarith
  have hL : (length (cross (vsub t'.2.1 t'.1) (vsub t'.2.2 t'.2.1))).1 ≠ 0 := by
    intro hc
    have hz : ∀ i, (normalOf t' i).1 = 0 := by
      intro i
      show F.rnd ((cross (vsub t'.2.1 t'.1) (vsub t'.2.2 t'.2.1) i).1 / (length (cross (vsub t'.2.1 t'.1) (vsub t'.2.2 t'.2.1))).1) = 0
      rw [hc, div_zero, F.rounds.zero]
    have e0 : Spec.norm (Fl.vals (normalOf t')) = 0 := by
      rw [show Fl.vals (normalOf t') = fun _ => (0 : ℝ) from funext hz]
      simp [Spec.norm]
    rw [e0] at h3
    norm_num at h3
    have h5 : (2 : ℝ)⁻¹ ^ F.prec ≤ 1 / 16 := by
      calc (2 : ℝ)⁻¹ ^ F.prec ≤ 2⁻¹ ^ 4 := pow_le_pow_of_le_one (by norm_num) (by norm_num) (by omega)
        _ = 1 / 16 := by norm_num
    norm_num at h5
    linarith
  have nn := normalOf_near hk (t := (p0, p1, p2)) m0 m1 m2 hL hsz
  refine ⟨_, _, _, meshOfO_facet _ _ _ (by omega), hn, fun i => ⟨_, (nn i).val⟩, h1, ?_, ?_⟩
  · rw [nn.reals]; exact h2
  · rw [nn.reals]; exact h3
end

/-! ### Overflow -/
namespace Ieee
variable {F : IeeeFormat}

theorem div_inf {a : Ieee F} {r : ℝ} (ha : a.val? = some r) (s : Bool) : (a / inf s).val? = some 0 := by
  have : ∀ t, (ofReal (F := F) t 0).val? = some 0 := fun t => ofReal_val (0 : Fl F.toFloatFormat).2 zero_small
  cases a with
  | nan => simp [val?] at ha
  | inf s => simp [val?] at ha
  | negZero => exact this _
  | fin x hx => exact this _

theorem sub_exact {a b : Ieee F} {r q : ℝ} (ha : a.val? = some r) (hb : b.val? = some q) (hm : Representable F.prec F.emin (r - q))
    (h : |r - q| < 2 ^ F.emax) : (a - b).val? = some (r - q) := by
  obtain ⟨s, hs⟩ := add_def ha (neg_val hb)
  rw [show a - b = a + -b from rfl, hs, ← sub_eq_add_neg]
  exact ofReal_val hm h

theorem mul_exact {a b : Ieee F} {r q : ℝ} (ha : a.val? = some r) (hb : b.val? = some q) (hm : Representable F.prec F.emin (r * q))
    (h : |r * q| < 2 ^ F.emax) : (a * b).val? = some (r * q) := by
  obtain ⟨s, hs⟩ := mul_def ha hb
  rw [hs]
  exact ofReal_val hm h

/-- The number `2 ^ n`. -/
noncomputable def pow2 (F : IeeeFormat) (n : ℕ) (h : n < F.emax) : Ieee F :=
  fin ⟨(2 : ℝ) ^ n, pow_mem _ _⟩ (by rw [abs_of_pos (by positivity)]; exact pow_lt_pow' h)

theorem pow2_val (n : ℕ) (h : n < F.emax) : (pow2 F n h).val? = some ((2 : ℝ) ^ n) := rfl
end Ieee

section
variable {F : IeeeFormat} {D : Nat}

/-- **C120** (the restriction is needed) In every format and dimension there is a segment with a length far below the largest number whose computed length is infinite,
and whose computed direction is the zero vector. (`float`: 2 ^ 64, about 2e19; `double`: 2 ^ 512.) -/
theorem C120_segment_counterexample (F : IeeeFormat) (D : Nat) [NeZero D] :
    ∃ s : Segment (Ieee F) D, (∀ i, (∃ r, (s.source i).val? = some r) ∧ ∃ r, (s.target i).val? = some r) ∧
      Spec.dist (reals s.target) (reals s.source) = Real.sqrt D * 2 ^ ((F.emax + 1) / 2) ∧
      s.length = inf false ∧ ∀ i, (s.direction i).val? = some 0 := by
  have hF := F.one_lt_emax
  have hn : (F.emax + 1) / 2 < F.emax := by omega
  set c : Ieee F := pow2 F ((F.emax + 1) / 2) hn with hc
  have hcv : c.val? = some ((2 : ℝ) ^ ((F.emax + 1) / 2)) := rfl
  have hd : (c - 0).val? = some ((2 : ℝ) ^ ((F.emax + 1) / 2)) := by
    have := sub_exact (b := (0 : Ieee F)) hcv rfl (by show Representable _ _ (_ - (0 : ℝ)); rw [sub_zero]; exact pow_mem _ _)
      (by show |_ - (0 : ℝ)| < _; rw [sub_zero, abs_of_pos (by positivity)]; exact pow_lt_pow' hn)
    rw [this]
    exact congrArg some (sub_zero _)
  have hsq : (c - 0) * (c - 0) = inf false := sq_overflow (.inl hd) (by omega)
  have hfold : ∀ n, Fin.foldl (n + 1) (fun (s : Ieee F) (_ : Fin (n + 1)) => s + inf false) 0 = inf false := by
    intro n
    induction n with
    | zero => rw [Fin.foldl_succ_last, Fin.foldl_zero]; rfl
    | succ n ih => rw [Fin.foldl_succ_last, ih]; rfl
  have hlen : length (vsub (fun _ : Fin D => c) fun _ => 0) = inf false := by
    show HasSqrt.sqrt (Fin.foldl D (fun s _ => s + (c - 0) * (c - 0)) 0) = _
    rw [hsq]
    obtain ⟨n, rfl⟩ : ∃ n, D = n + 1 := ⟨D - 1, by have := NeZero.ne D; omega⟩
    rw [hfold]; rfl
  refine ⟨⟨fun _ => 0, fun _ => c⟩, fun i => ⟨⟨0, rfl⟩, ⟨_, hcv⟩⟩, ?_, hlen, fun i => ?_⟩
  · have h1 : reals (fun _ : Fin D => c) = fun _ => (2 : ℝ) ^ ((F.emax + 1) / 2) := by funext i; rfl
    have h2 : reals (fun _ : Fin D => (0 : Ieee F)) = fun _ => (0 : ℝ) := by funext i; rfl
    show Spec.dist (reals fun _ : Fin D => c) (reals fun _ : Fin D => (0 : Ieee F)) = _
    rw [h1, h2]
    simp only [Spec.dist, sub_zero, Finset.sum_const, Finset.card_univ, Fintype.card_fin, nsmul_eq_mul]
    rw [Real.sqrt_mul (by positivity), Real.sqrt_sq (by positivity)]
  · show ((c - 0) / length (vsub (fun _ : Fin D => c) fun _ => 0)).val? = some 0
    rw [hlen]
    exact div_inf hd _

/-- **C120** (the restriction is needed) In every format there is a right-angled triangle with sides of length `2 ^ ⌈emax / 4⌉` (`float`: 2 ^ 32, about 4e9) whose computed
normal is the zero vector. -/
theorem C120_facet_counterexample (F : IeeeFormat) (hF : 4 ≤ F.emax) :
    ∃ t : Vec (Ieee F) 3 × Vec (Ieee F) 3 × Vec (Ieee F) 3, realTriangle t = (![0, 0, 0], ![2 ^ ((F.emax + 3) / 4), 0, 0], ![0, 2 ^ ((F.emax + 3) / 4), 0]) ∧
      ∀ dbg M m, 3 < M → BuiltFrom dbg M [t] m → ∃ f n, vecGet m.facets 0 = .ok f ∧ calcFacetNormal m f = .ok n ∧ ∀ i, (n i).val? = some 0 := by
  have hn : (F.emax + 3) / 4 < F.emax := by omega
  have hn2 : 2 * ((F.emax + 3) / 4) < F.emax := by omega
  set n := (F.emax + 3) / 4 with hnd
  set c : Ieee F := pow2 F n hn with hc
  have key : ∀ p0 p1 p2 : Vec (Ieee F) 3, (∀ i, (p0 i).val? = some ((![0, 0, 0] : Vec ℝ 3) i)) → (∀ i, (p1 i).val? = some ((![2 ^ n, 0, 0] : Vec ℝ 3) i)) →
      (∀ i, (p2 i).val? = some ((![0, 2 ^ n, 0] : Vec ℝ 3) i)) → ∀ i, (normalOf (p0, p1, p2) i).val? = some 0 := by
    intro p0 p1 p2 h0 h1 h2
    have rz : Representable F.prec F.emin (0 : ℝ) := (0 : Fl F.toFloatFormat).2
    have rp : ∀ k, Representable F.prec F.emin ((2 : ℝ) ^ k) := fun k => pow_mem _ _
    have rn : Representable F.prec F.emin (-(2 : ℝ) ^ n) := (-(show Fl F.toFloatFormat from ⟨2 ^ n, rp n⟩)).2
    have lz : |(0 : ℝ)| < 2 ^ F.emax := zero_small
    have lp : |(2 : ℝ) ^ n| < 2 ^ F.emax := by rw [abs_of_pos (by positivity)]; exact pow_lt_pow' hn
    have ln : |-(2 : ℝ) ^ n| < 2 ^ F.emax := by rw [abs_neg]; exact lp
    have u0 : (vsub p1 p0 0).val? = some ((2 : ℝ) ^ n) := by
      have := sub_exact (h1 0) (h0 0) (by simpa using rp n) (by simpa using lp); simp at this; exact this
    have u1 : (vsub p1 p0 1).val? = some (0 : ℝ) := by
      have := sub_exact (h1 1) (h0 1) (by simpa using rz) (by simp); simp at this; exact this
    have u2 : (vsub p1 p0 2).val? = some (0 : ℝ) := by
      have := sub_exact (h1 2) (h0 2) (by simpa using rz) (by simp); simp at this; exact this
    have v0 : (vsub p2 p1 0).val? = some (-(2 : ℝ) ^ n) := by
      have := sub_exact (h2 0) (h1 0) (by simpa using rn) (by simpa using lp); simp at this; exact this
    have v1 : (vsub p2 p1 1).val? = some ((2 : ℝ) ^ n) := by
      have := sub_exact (h2 1) (h1 1) (by simpa using rp n) (by simpa using lp); simp at this; exact this
    have v2 : (vsub p2 p1 2).val? = some (0 : ℝ) := by
      have := sub_exact (h2 2) (h1 2) (by simpa using rz) (by simp); simp at this; exact this
    have mz : ∀ {a b : Ieee F} {r q : ℝ}, a.val? = some r → b.val? = some q → r * q = 0 → (a * b).val? = some 0 := by
      intro a b r q ha hb h
      rw [mul_exact ha hb (by rw [h]; exact rz) (by rw [h]; exact lz), h]
    have sz : ∀ {a b : Ieee F}, a.val? = some 0 → b.val? = some 0 → (a - b).val? = some 0 := by
      intro a b ha hb
      rw [sub_exact ha hb (by rw [sub_zero]; exact rz) (by rw [sub_zero]; exact lz), sub_zero]
    have w0 : (cross (vsub p1 p0) (vsub p2 p1) 0).val? = some 0 := sz (mz u1 v2 (by ring)) (mz u2 v1 (by ring))
    have w1 : (cross (vsub p1 p0) (vsub p2 p1) 1).val? = some 0 := sz (mz u2 v0 (by ring)) (mz u0 v2 (by ring))
    have hpp : (2 : ℝ) ^ n * 2 ^ n = 2 ^ (2 * n) := by rw [two_mul, pow_add]
    have w2 : (cross (vsub p1 p0) (vsub p2 p1) 2).val? = some ((2 : ℝ) ^ (2 * n)) := by
      have a1 : (vsub p1 p0 0 * vsub p2 p1 1).val? = some ((2 : ℝ) ^ (2 * n)) := by
        rw [mul_exact u0 v1 (by rw [hpp]; exact rp _) (by rw [hpp, abs_of_pos (by positivity)]; exact pow_lt_pow' hn2), hpp]
      have a2 : (vsub p1 p0 1 * vsub p2 p1 0).val? = some 0 := mz u1 v0 (by ring)
      have := sub_exact a1 a2 (by rw [sub_zero]; exact rp _) (by rw [sub_zero, abs_of_pos (by positivity)]; exact pow_lt_pow' hn2)
      rw [sub_zero] at this
      exact this
    have hl : length (cross (vsub p1 p0) (vsub p2 p1)) = inf false := by
      unfold length dot
      simp only [Fin.foldl_succ_last, Fin.foldl_zero]
      have hsq : cross (vsub p1 p0) (vsub p2 p1) 2 * cross (vsub p1 p0) (vsub p2 p1) 2 = inf false := sq_overflow (.inl w2) (by omega)
      rw [show (Fin.last 2 : Fin 3) = 2 from rfl, hsq]
      have hfin : ∀ x : Ieee F, (∃ r, x.val? = some r) → x + inf false = inf false := by
        rintro x ⟨r, hr⟩
        cases x <;> first | rfl | simp [val?] at hr
      rw [hfin]
      · rfl
      · have b0 : ((0 : Ieee F) + cross (vsub p1 p0) (vsub p2 p1) 0 * cross (vsub p1 p0) (vsub p2 p1) 0).val? = some 0 := by
          obtain ⟨s, hs⟩ := add_def (F := F) (a := 0) rfl (mz w0 w0 (by ring))
          rw [hs, add_zero]; exact ofReal_val rz lz
        obtain ⟨s, hs⟩ := add_def b0 (mz w1 w1 (by ring))
        refine ⟨0, ?_⟩
        have : (ofReal (F := F) s (0 + 0)).val? = some 0 := by rw [add_zero]; exact ofReal_val rz lz
        rw [← hs] at this
        exact this
    intro i
    show ((cross (vsub p1 p0) (vsub p2 p1) i) / length (cross (vsub p1 p0) (vsub p2 p1))).val? = some 0
    rw [hl]
    fin_cases i
    · exact div_inf w0 _
    · exact div_inf w1 _
    · exact div_inf w2 _
  refine ⟨(fun _ => 0, ![c, 0, 0], ![0, c, 0]), ?_, ?_⟩
  · show ((reals fun _ => 0), reals ![c, 0, 0], reals ![0, c, 0]) = _
    refine Prod.ext ?_ (Prod.ext ?_ ?_)
    · funext i; fin_cases i <;> rfl
    · funext i; fin_cases i <;> rfl
    · funext i; fin_cases i <;> rfl
  · intro dbg M m hM hb
    obtain ⟨o, rfl⟩ := hb.eq (by simpa using hM)
    have hl : (weld (corners [((fun _ => 0 : Vec (Ieee F) 3), (![c, 0, 0] : Vec (Ieee F) 3), (![0, c, 0] : Vec (Ieee F) 3))])).2.length = 3 := by
      rw [weld_length, corners_length]; rfl
    obtain ⟨p0, p1, p2, r0, r1, r2, hn⟩ := calcFacetNormal_rep o [((fun _ => 0 : Vec (Ieee F) 3), (![c, 0, 0] : Vec (Ieee F) 3), (![0, c, 0] : Vec (Ieee F) 3))] 0 (by simp)
    have lv : ∀ {a b : Ieee F} {r : ℝ}, Like a b → b.val? = some r → a.val? = some r := by
      rintro a b r (⟨rfl, rfl⟩ | ⟨s, rfl, rfl⟩ | ⟨q, h1, h2⟩) hb
      · simp [val?] at hb
      · simp [val?] at hb
      · rw [h1, ← h2, hb]
    refine ⟨_, _, meshOfO_facet _ _ _ (by omega), hn, key p0 p1 p2 (fun i => lv (rep_like r0 i) ?_) (fun i => lv (rep_like r1 i) ?_) (fun i => lv (rep_like r2 i) ?_)⟩
    · fin_cases i <;> rfl
    · fin_cases i <;> rfl
    · fin_cases i <;> rfl

theorem ofReal_zero' : ofReal (F := F) false 0 = 0 := by
  have hr : (Fl.round 0 : Fl F.toFloatFormat).1 = 0 := F.rounds.exact (0 : Fl F.toFloatFormat).2
  unfold ofReal
  simp only [hr]
  rw [if_pos trivial, if_neg (by simp)]
  rfl

/-- `+0.0` plus a zero of either sign is `+0.0`. -/
theorem zero_add_zero' {b : Ieee F} (hb : b.val? = some 0) : (0 : Ieee F) + b = 0 := by
  have hs : (0 : Ieee F).signBit = false := decide_eq_false (lt_irrefl (0 : ℝ))
  cases b with
  | nan => simp [val?] at hb
  | inf s => simp [val?] at hb
  | negZero =>
    show ofReal ((0 : Ieee F).signBit && _) ((0 : ℝ) + 0) = 0
    rw [hs, add_zero]; exact ofReal_zero'
  | fin x hx =>
    simp only [val?, Option.some.injEq] at hb
    show ofReal ((0 : Ieee F).signBit && _) ((0 : ℝ) + x.1) = 0
    rw [hs, hb, add_zero]; exact ofReal_zero'

theorem sqrt_zero' : HasSqrt.sqrt (0 : Ieee F) = 0 := by
  show (@ite (Ieee F) ((0 : ℝ) < 0) _ nan (ofReal false (Real.sqrt 0))) = 0
  rw [if_neg (lt_irrefl _), Real.sqrt_zero]; exact ofReal_zero'

/-- A positive number divided by `+0.0` is infinite. -/
theorem div_zero' {a : Ieee F} {r : ℝ} (ha : a.val? = some r) (hr : 0 < r) : a / 0 = inf false := by
  cases a with
  | nan => simp [val?] at ha
  | inf s => simp [val?] at ha
  | negZero => simp only [val?, Option.some.injEq] at ha; exact absurd ha hr.ne
  | fin x hx =>
    simp only [val?, Option.some.injEq] at ha
    have h1 : (fin x hx : Ieee F).signBit = false := decide_eq_false (by rw [ha]; exact hr.le.not_gt)
    have h2 : (0 : Ieee F).signBit = false := decide_eq_false (lt_irrefl (0 : ℝ))
    show (@ite (Ieee F) _ (Classical.propDecidable _) (@ite (Ieee F) _ (Classical.propDecidable _) _ (inf ((fin x hx : Ieee F).signBit ^^ (0 : Ieee F).signBit))) _) = inf false
    rw [if_pos (show (0 : Ieee F).val? = some 0 from rfl), if_neg (by simp only [val?, Option.some.injEq, ha]; exact hr.ne'), h1, h2]
    rfl

/-- **C120** (the restriction is needed) In every format with a smallest number below 1/2 there is a segment with distinct end points whose computed length is zero and
whose computed direction has infinite coordinates. -/
theorem C120_tiny_counterexample (F : IeeeFormat) (k : ℤ) (hk : F.emin = some k) (hk1 : k < -1) (D : Nat) [NeZero D] :
    ∃ s : Segment (Ieee F) D, (∀ i, (∃ r, (s.source i).val? = some r) ∧ ∃ r, (s.target i).val? = some r) ∧
      0 < Spec.dist (reals s.target) (reals s.source) ∧ s.length.val? = some 0 ∧ ∀ i, s.direction i = inf false := by
  have hrep : Representable F.prec F.emin ((2 : ℝ) ^ k) := by
    apply representable_two_pow F.one_lt_prec
    intro k' hk'
    rw [hk, Option.some.injEq] at hk'
    omega
  have hpos := two_zpow_pos k
  have hlt : |(2 : ℝ) ^ k| < 2 ^ F.emax := by
    rw [abs_of_pos hpos]
    calc (2 : ℝ) ^ k ≤ 2 ^ (0 : ℤ) := zpow_le_zpow_right₀ (by norm_num) (by omega)
      _ = 2 ^ 0 := by norm_num
      _ < 2 ^ F.emax := pow_lt_pow' (by have := F.one_lt_emax; omega)
  set c : Ieee F := fin ⟨(2 : ℝ) ^ k, hrep⟩ hlt with hc
  have hcv : c.val? = some ((2 : ℝ) ^ k) := rfl
  have hd : (c - 0).val? = some ((2 : ℝ) ^ k) := by
    have := sub_exact (b := (0 : Ieee F)) hcv rfl (by show Representable _ _ (_ - (0 : ℝ)); rw [sub_zero]; exact hrep)
      (by show |_ - (0 : ℝ)| < _; rw [sub_zero]; exact hlt)
    rw [this]
    exact congrArg some (sub_zero _)
  have hsq : ((c - 0) * (c - 0)).val? = some 0 := by
    obtain ⟨s, hs⟩ := mul_def hd hd
    rw [hs]
    rcases ofReal_cases (F := F) s ((2 : ℝ) ^ k * 2 ^ k) with ⟨q, h1, h2⟩ | ⟨_, h, _⟩
    · rw [h1, h2, tiny_sq F.toFloatFormat k hk hk1]
    · exact absurd (tiny_sq F.toFloatFormat k hk hk1) h
  have hfold : ∀ n, Fin.foldl n (fun (s : Ieee F) (_ : Fin n) => s + (c - 0) * (c - 0)) 0 = 0 := by
    intro n
    induction n with
    | zero => rw [Fin.foldl_zero]
    | succ n ih => rw [Fin.foldl_succ_last, ih]; exact zero_add_zero' hsq
  have hlen : length (vsub (fun _ : Fin D => c) fun _ => 0) = 0 := by
    show HasSqrt.sqrt (Fin.foldl D (fun s _ => s + (c - 0) * (c - 0)) 0) = _
    rw [hfold]; exact sqrt_zero'
  refine ⟨⟨fun _ => 0, fun _ => c⟩, fun i => ⟨⟨0, rfl⟩, ⟨_, hcv⟩⟩, ?_, ?_, fun i => ?_⟩
  · have h1 : reals (fun _ : Fin D => c) = fun _ => (2 : ℝ) ^ k := by funext i; rfl
    have h2 : reals (fun _ : Fin D => (0 : Ieee F)) = fun _ => (0 : ℝ) := by funext i; rfl
    show 0 < Spec.dist (reals fun _ : Fin D => c) (reals fun _ : Fin D => (0 : Ieee F))
    rw [h1, h2]
    simp only [Spec.dist, sub_zero, Finset.sum_const, Finset.card_univ, Fintype.card_fin, nsmul_eq_mul]
    have : (0 : ℝ) < D := by exact_mod_cast Nat.pos_of_ne_zero (NeZero.ne D)
    exact Real.sqrt_pos.2 (by positivity)
  · show (length (vsub (fun _ : Fin D => c) fun _ => 0)).val? = some 0
    rw [hlen]; rfl
  · show (c - 0) / length (vsub (fun _ : Fin D => c) fun _ => 0) = inf false
    rw [hlen]
    exact div_zero' hd hpos
end

/-! ### Examples -/
section Examples
/-- A point of the integer grid, as IEEE numbers. -/
noncomputable def q64 (a b c : ℤ) (ha : |a| < 2 ^ 53 := by norm_num) (hb : |b| < 2 ^ 53 := by norm_num) (hc : |c| < 2 ^ 53 := by norm_num) : Vec (Ieee double64) 3 :=
  ![ie64 a ha, ie64 b hb, ie64 c hc]

theorem q64_vals (a b c : ℤ) (ha : |a| < 2 ^ 53) (hb : |b| < 2 ^ 53) (hc : |c| < 2 ^ 53) : reals (q64 a b c ha hb hc) = ![(a : ℝ), (b : ℝ), (c : ℝ)] := by
  funext i; fin_cases i <;> rfl

theorem ie64_most (k : ℕ) (hk : 53 ≤ k) (n : ℤ) (h : |n| < 2 ^ 53) : AtMost k (ie64 n h) := by
  refine ⟨n, rfl, ?_⟩
  have h1 : |(n : ℝ)| < 2 ^ 53 := by exact_mod_cast h
  exact h1.le.trans (pow_le_pow_right₀ (by norm_num) hk)

theorem q64_most (k : ℕ) (hk : 53 ≤ k) (a b c : ℤ) (ha : |a| < 2 ^ 53) (hb : |b| < 2 ^ 53) (hc : |c| < 2 ^ 53) (i : Fin 3) : AtMost k (q64 a b c ha hb hc i) := by
  fin_cases i <;> exact ie64_most k hk _ _

theorem q64_fin (a b c : ℤ) (ha : |a| < 2 ^ 53) (hb : |b| < 2 ^ 53) (hc : |c| < 2 ^ 53) (i : Fin 3) : ∃ r, (q64 a b c ha hb hc i).val? = some r := by
  fin_cases i <;> exact ⟨_, rfl⟩

theorem q64_norm : Spec.norm (reals (q64 0 1 0)) = 1 := by
  rw [q64_vals]; exact norm3 _ _ _ 1 (by norm_num) (by norm_num)

theorem q64_dist : Spec.dist (reals (q64 3 5 9)) (reals (q64 1 2 3)) = 7 := by
  rw [q64_vals, q64_vals]; exact dist3 _ _ _ _ _ _ 7 (by norm_num) (by norm_num)

/-- The exact comparisons. -/
theorem greaterExact : (∀ (a : Ieee double64) x, a.val? = some x → (tolExact double64).isGreater a 0 (tolExact double64).eps = true → 0 ≤ x) ∧
    (∀ (a : Ieee double64) x, a.val? = some x → (tolExact double64).isGreater a 0 (tolExact double64).eps = false → x ≤ 0) := by
  constructor
  · intro a x ha h
    have ha' : a ≠ nan := fun h => (by rw [h] at ha; cases ha)
    have h := (lt_iff_ord ha').1 (of_decide_eq_true h)
    rw [ord_of_val ha, ord_of_val (show (0 : Ieee double64).val? = some 0 from rfl)] at h
    exact (EReal.coe_lt_coe_iff.1 h).le
  · intro a x ha h
    have ha' : a ≠ nan := fun h => (by rw [h] at ha; cases ha)
    have h := (not_congr (lt_iff_ord ha')).1 (of_decide_eq_false h)
    rw [ord_of_val ha, ord_of_val (show (0 : Ieee double64).val? = some 0 from rfl)] at h
    exact not_lt.1 fun hc => h (EReal.coe_lt_coe_iff.2 hc)

attribute [local instance] tolExact

/-- Coordinates up to 2 ^ 500 are in the domain. -/
example : ∃ x δ, (distVecLine (q64 3 5 9) ⟨q64 1 2 3, q64 0 1 0⟩).val? = some x ∧
    Spec.IsDistance {reals (q64 3 5 9)} (Spec.line (reals (q64 1 2 3)) (reals (q64 0 1 0))) δ ∧ |x - δ| ≤ 1 / 10 ^ 12 := by
  obtain ⟨x, δ, h1, h2, h3⟩ := C120_point_line_partial (F := double64) 500 (by show 2 * 500 + 3 * 3 + 14 < 1024; norm_num) (q64 3 5 9) ⟨q64 1 2 3, q64 0 1 0⟩
    (q64_most _ (by norm_num) _ _ _ _ _ _) (q64_most _ (by norm_num) _ _ _ _ _ _) (q64_fin _ _ _ _ _ _) (by show 64 * 5 ≤ 2 ^ 53; norm_num) emin64
    (by rw [q64_norm]; norm_num) (by rw [q64_norm]; norm_num) (ω := (2 : ℝ)⁻¹ ^ 500) (by positivity) root64
  refine ⟨x, δ, h1, h2, h3.trans ?_⟩
  show 8 * ((3 : ℕ) + 2) * (2 : ℝ)⁻¹ ^ binary64.prec * Spec.dist (reals (q64 3 5 9)) (reals (q64 1 2 3)) + _ ≤ _
  rw [q64_dist]
  have h4 := unit64'
  have h5 := root64'
  push_cast
  generalize (2 : ℝ)⁻¹ ^ binary64.prec = μ at h4 h5 ⊢
  generalize (2 : ℝ)⁻¹ ^ 500 = ν at h4 h5 ⊢
  norm_num at h4 h5 ⊢
  linarith

example : ∃ x δ, (distRayVec ⟨q64 1 2 3, q64 0 1 0⟩ (q64 3 5 9)).val? = some x ∧
    Spec.IsDistance {reals (q64 3 5 9)} (Spec.ray (reals (q64 1 2 3)) (reals (q64 0 1 0))) δ ∧ |x - δ| ≤ 1 / 10 ^ 12 := by
  obtain ⟨x, δ, h1, h2, h3⟩ := C120_point_ray_partial (F := double64) 500 (by show 2 * 500 + 3 * 3 + 14 < 1024; norm_num) (q64 3 5 9) ⟨q64 1 2 3, q64 0 1 0⟩
    (q64_most _ (by norm_num) _ _ _ _ _ _) (q64_most _ (by norm_num) _ _ _ _ _ _) (q64_fin _ _ _ _ _ _) (by show 64 * 5 ≤ 2 ^ 53; norm_num) emin64
    (by rw [q64_norm]; norm_num) (by rw [q64_norm]; norm_num) le_rfl greaterExact.1 greaterExact.2 (ω := (2 : ℝ)⁻¹ ^ 500) (by positivity) root64
  refine ⟨x, δ, h1, h2, h3.trans ?_⟩
  show 10 * ((3 : ℕ) + 2) * (2 : ℝ)⁻¹ ^ binary64.prec * Spec.dist (reals (q64 3 5 9)) (reals (q64 1 2 3)) + _ + _ ≤ _
  rw [q64_dist]
  have h4 := unit64'
  have h5 := root64'
  push_cast
  generalize (2 : ℝ)⁻¹ ^ binary64.prec = μ at h4 h5 ⊢
  generalize (2 : ℝ)⁻¹ ^ 500 = ν at h4 h5 ⊢
  norm_num at h4 h5 ⊢
  linarith

/-- Here coordinates up to 2 ^ 1018. -/
example : ∃ x δ, (distPlaneVec ⟨q64 1 2 3, q64 0 1 0⟩ (q64 3 5 9)).val? = some x ∧
    Spec.IsDistance {reals (q64 3 5 9)} (Spec.plane (reals (q64 1 2 3)) (reals (q64 0 1 0))) δ ∧ |x - δ| ≤ 1 / 10 ^ 12 := by
  obtain ⟨x, δ, h1, h2, h3⟩ := C120_point_plane_partial (F := double64) 1018 (by show 1018 + 5 < 1024; norm_num) (q64 3 5 9) ⟨q64 1 2 3, q64 0 1 0⟩
    (q64_most _ (by norm_num) _ _ _ _ _ _) (q64_most _ (by norm_num) _ _ _ _ _ _) (q64_fin _ _ _ _ _ _) (by show 9 ≤ 53; norm_num) emin64
    (η := 0) (by rw [q64_norm]; norm_num) (by norm_num) (ω := 1 / 10 ^ 20) (by norm_num) emin64'
  refine ⟨x, δ, h1, h2, h3.trans ?_⟩
  show 12 * (2 : ℝ)⁻¹ ^ binary64.prec * Spec.dist (reals (q64 3 5 9)) (reals (q64 1 2 3)) + _ + _ ≤ _
  rw [q64_dist]
  have h4 := unit64'
  generalize (2 : ℝ)⁻¹ ^ binary64.prec = μ at h4 ⊢
  norm_num at h4 ⊢
  linarith

example : ∃ x, (signedDistSphere (q64 3 5 9) ⟨q64 1 2 3, ie64 2⟩).val? = some x ∧ (distSphere (q64 3 5 9) ⟨q64 1 2 3, ie64 2⟩).val? = some |x| ∧ |x - 5| ≤ 1 / 10 ^ 12 := by
  obtain ⟨x, h1, h2, h3⟩ := C120_point_sphere_partial (F := double64) 509 (by show 2 * 509 + 5 < 1024; norm_num) (q64 3 5 9) ⟨q64 1 2 3, ie64 2⟩ 2
    (q64_most _ (by norm_num) _ _ _ _ _ _) (q64_most _ (by norm_num) _ _ _ _ _ _) (by show some (((2 : ℤ) : ℝ)) = _; norm_num)
    (by rw [abs_of_pos two_pos]; exact le_self_pow₀ (by norm_num) (by norm_num)) (by show 9 ≤ 53; norm_num) emin64 (ω := (2 : ℝ)⁻¹ ^ 500) (by positivity)
    (fun k hk => le_trans (by norm_num) (root64 k hk))
  refine ⟨x, h1, h2, ?_⟩
  change |x - (Spec.dist (reals (q64 3 5 9)) (reals (q64 1 2 3)) - 2)| ≤ (2 : ℝ)⁻¹ ^ binary64.prec * (12 * Spec.dist (reals (q64 3 5 9)) (reals (q64 1 2 3)) +
    |Spec.dist (reals (q64 3 5 9)) (reals (q64 1 2 3)) - 2|) + _ at h3
  rw [q64_dist] at h3
  have h4 := unit64'
  have h5 := root64'
  generalize (2 : ℝ)⁻¹ ^ binary64.prec = μ at h3 h4 h5 ⊢
  generalize (2 : ℝ)⁻¹ ^ 500 = ν at h3 h4 h5 ⊢
  norm_num at h3 h4 h5 ⊢
  linarith

/-- A plane and a line at a right angle, exact test for parallels. -/
example : ∃ q, intersectPlaneLine ⟨q64 3 5 9, q64 0 1 0⟩ ⟨q64 1 2 3, q64 0 1 0⟩ (0 : Ieee double64) = some q ∧ |reals q 1 - 5| ≤ 1 / 10 ^ 12 := by
  obtain ⟨q, x, h1, -, h2, h3, -⟩ := C120_plane_line_partial (F := double64) 1010 1 (by show 1010 + 1 + 7 < 1024; norm_num) ⟨q64 3 5 9, q64 0 1 0⟩ ⟨q64 1 2 3, q64 0 1 0⟩ 0
    (q64_most _ (by norm_num) _ _ _ _ _ _) (q64_most _ (by norm_num) _ _ _ _ _ _) (q64_fin _ _ _ _ _ _) (q64_fin _ _ _ _ _ _) (by show 9 ≤ 53; norm_num) emin64_lt
    (by rw [q64_norm]; norm_num) (by rw [q64_norm]; norm_num) (s := 1) (ω := 1 / 10 ^ 18) one_pos
    (by rw [q64_norm]; simp only [q64_vals, Fin.sum_univ_three, Matrix.cons_val_zero, Matrix.cons_val_one, Matrix.cons_val]; norm_num) (by norm_num) (by show 64 * (2 : ℝ)⁻¹ ^ 53 ≤ _; norm_num) (by norm_num)
    (emin64_mul (by norm_num))
    (by
      intro a x ha hx
      show (a == 0) = false
      refine Bool.eq_false_iff.2 fun h => ?_
      have := (beq_iff.1 h).2.2
      rw [ord_of_val ha, ord_of_val (show (0 : Ieee double64).val? = some 0 from rfl)] at this
      rw [EReal.coe_eq_coe_iff.1 this, abs_zero] at hx
      norm_num at hx)
  refine ⟨q, h1, ?_⟩
  have hx : ![1, 5, 3] ∈ ({x} : Set (Vec ℝ 3)) := by
    rw [← h2]
    show _ ∈ Spec.plane (reals (q64 3 5 9)) (reals (q64 0 1 0)) ∩ Spec.line (reals (q64 1 2 3)) (reals (q64 0 1 0))
    rw [q64_vals, q64_vals, q64_vals]
    refine ⟨?_, 3, ?_⟩
    · simp [Spec.plane, Fin.sum_univ_three]
    · funext i; fin_cases i <;> (simp [Spec.pointAt]; try norm_num)
  obtain rfl : ![1, 5, 3] = x := hx
  have h := h3 1
  simp only [q64_dist, Matrix.cons_val_one, Matrix.cons_val_zero] at h
  refine h.trans ?_
  have h4 := unit64'
  change (2 : ℝ)⁻¹ ^ binary64.prec * _ + 26 * ((2 : ℝ)⁻¹ ^ binary64.prec / _ * _) + _ ≤ _
  generalize (2 : ℝ)⁻¹ ^ binary64.prec = μ at h4 ⊢
  norm_num at h4 ⊢
  linarith

/-- A matrix that is not a motion. -/
noncomputable def shearIe : HMat (Ieee double64) :=
  ![![ie64 2, ie64 3, ie64 0, ie64 5], ![ie64 0, ie64 1, ie64 4, ie64 7], ![ie64 1, ie64 1, ie64 1, ie64 9], ![ie64 0, ie64 0, ie64 0, ie64 1]]

example : ∃ x, (transformVec (q64 100 200 300) shearIe 0).val? = some x ∧ |x - 805| ≤ 1 / 10 ^ 11 := by
  have e : (fun a b => reals (shearIe a) b) = HMat.vals shear64 := by
    funext a b; fin_cases a <;> fin_cases b <;> rfl
  obtain ⟨x, hx, h⟩ := C120_transform_partial (F := double64) 509 509 (by show 509 + 509 + 4 < 1024; norm_num) (q64 100 200 300) shearIe
    (q64_most _ (by norm_num) _ _ _ _ _ _) (fun a b => by fin_cases a <;> fin_cases b <;> exact ie64_most _ (by norm_num) _ _) (e ▸ shear64_describes)
    (by show 9 ≤ 53; norm_num) (ω := 1 / 10 ^ 20) (by norm_num) emin64' 0
  refine ⟨x, hx, ?_⟩
  change |_| ≤ 6 * (2 : ℝ)⁻¹ ^ binary64.prec * _ + _ at h
  rw [q64_vals] at h
  simp only [Fin.sum_univ_three, Matrix.of_apply, Matrix.cons_val_zero, Matrix.cons_val_one, Matrix.cons_val] at h
  have hu := unit64'
  generalize (2 : ℝ)⁻¹ ^ binary64.prec = u at h hu
  norm_num at h
  norm_num at hu
  refine h.trans ?_
  norm_num
  linarith

example : (∃ x, (⟨q64 1 2 3, q64 3 5 9⟩ : Segment (Ieee double64) 3).length.val? = some x ∧ |x - 7| ≤ 1 / 10 ^ 13) ∧
    ∀ i, ∃ x, ((⟨q64 1 2 3, q64 3 5 9⟩ : Segment (Ieee double64) 3).direction i).val? = some x := by
  have h0 : 0 < Spec.dist (reals (q64 3 5 9)) (reals (q64 1 2 3)) := by rw [q64_dist]; norm_num
  obtain ⟨x, h1, h2⟩ := C120_segment_length_partial (F := double64) 509 (by show 2 * (509 + 1) + 3 < 1024; norm_num) ⟨q64 1 2 3, q64 3 5 9⟩
    (q64_most _ (by norm_num) _ _ _ _ _ _) (q64_most _ (by norm_num) _ _ _ _ _ _) (by show 64 * (3 + 2) ≤ 2 ^ 53; norm_num) h0
    (by show ∀ k, _ → _ ∧ _ ≤ _ * Spec.dist (reals (q64 3 5 9)) (reals (q64 1 2 3)); rw [q64_dist]; exact small64 (by norm_num))
  have h3 := C120_segment_direction_partial (F := double64) 509 (by show 2 * (509 + 1) + 3 < 1024; norm_num) ⟨q64 1 2 3, q64 3 5 9⟩
    (q64_most _ (by norm_num) _ _ _ _ _ _) (q64_most _ (by norm_num) _ _ _ _ _ _) (by show 64 * (3 + 2) ≤ 2 ^ 53; norm_num) h0
    (by show ∀ k, _ → _ ∧ _ ≤ _ * Spec.dist (reals (q64 3 5 9)) (reals (q64 1 2 3)); rw [q64_dist]; exact small64 (by norm_num))
  refine ⟨⟨x, h1, ?_⟩, fun i => ?_⟩
  · change |x - Spec.dist (reals (q64 3 5 9)) (reals (q64 1 2 3))| ≤ ((3 : ℕ) + 4) * (2 : ℝ)⁻¹ ^ 53 * Spec.dist (reals (q64 3 5 9)) (reals (q64 1 2 3)) at h2
    rw [q64_dist] at h2
    refine h2.trans ?_
    norm_num
  · obtain ⟨x, h, -⟩ := h3 i
    exact ⟨x, h⟩

/-- A triangle in a slanted plane. -/
noncomputable def slantIe : List (Vec (Ieee double64) 3 × Vec (Ieee double64) 3 × Vec (Ieee double64) 3) := [(q64 20 0 0, q64 0 15 0, q64 0 0 5)]

example : ∃ m f n', addTriangles true 100 slantIe = .ok m ∧ vecGet m.facets 0 = .ok f ∧ calcFacetNormal m f = .ok n' ∧
    Spec.dist (reals n') ![3 / 13, 4 / 13, 12 / 13] ≤ 1 / 10 ^ 13 := by
  have hb := addTriangles_eq true 100 slantIe (by show 3 * 1 < 100; norm_num)
  have e : realTriangle (slantIe[0]'(by simp [slantIe])) = (![20, 0, 0], ![0, 15, 0], ![0, 0, 5]) := by
    show (reals (q64 20 0 0), reals (q64 0 15 0), reals (q64 0 0 5)) = _
    rw [q64_vals, q64_vals, q64_vals]; push_cast; rfl
  have hA : twiceArea (realTriangle (slantIe[0]'(by simp [slantIe]))) = 325 := by
    rw [e]; exact area_lit _ _ _ _ _ _ _ _ _ _ (by norm_num) (by norm_num)
  have hP : sidesProduct (realTriangle (slantIe[0]'(by simp [slantIe]))) ≤ 25 * 16 := by
    rw [e]; exact sides_lit (by norm_num) (by norm_num) (by norm_num) (by norm_num)
  have hu := unit64'
  have hu0 := binary64.unit_pos
  change binary64.unit ≤ _ at hu
  obtain ⟨f, n', n, h1, h2, -, h3, h4, -⟩ := C120_facet_partial (F := double64) 250 (by show 4 * 250 + 9 < 1024; norm_num) true 100 slantIe (by show 3 * 1 < 100; norm_num) _
    (.of_add hb) (by show 9 ≤ 53; norm_num) 0 (by show 0 < 1; norm_num)
    (fun i => ⟨q64_most _ (by norm_num) _ _ _ _ _ _ i, q64_most _ (by norm_num) _ _ _ _ _ _ i, q64_most _ (by norm_num) _ _ _ _ _ _ i⟩)
    (by rw [hA]; norm_num) (by rw [hA]; exact small64' (by norm_num))
    (by
      rw [hA]
      change 16 * (binary64.unit * _) ≤ _
      have := mul_le_mul_of_nonneg_left hP hu0.le
      norm_num at *
      linarith)
  refine ⟨_, f, n', hb, h1, h2, ?_⟩
  have hn : n = ![3 / 13, 4 / 13, 12 / 13] := by
    rw [e] at h3
    exact (normal_lit _ _ _ _ _ _ _ _ _ _ _ _ 325 (by norm_num) (by norm_num) (by norm_num) (by norm_num) (by norm_num) n).1 h3
  rw [hn, hA] at h4
  change _ ≤ 21 * binary64.unit * _ at h4
  refine h4.trans ?_
  have : sidesProduct (realTriangle (slantIe[0]'(by simp [slantIe]))) / 325 ≤ 400 / 325 := by
    rw [div_le_div_iff_of_pos_right (by norm_num)]; linarith
  have := mul_le_mul_of_nonneg_left this hu0.le
  norm_num at *
  linarith

example : ∃ s : Segment (Ieee double64) 3, s.length = inf false ∧ ∀ i, (s.direction i).val? = some 0 := by
  obtain ⟨s, -, -, h⟩ := C120_segment_counterexample double64 3
  exact ⟨s, h⟩

example : ∃ s : Segment (Ieee double64) 3, 0 < Spec.dist (reals s.target) (reals s.source) ∧ s.length.val? = some 0 ∧ ∀ i, s.direction i = inf false := by
  obtain ⟨s, -, h⟩ := C120_tiny_counterexample double64 (-1074) rfl (by norm_num) 3
  exact ⟨s, h⟩

example : ∃ t : Vec (Ieee double64) 3 × Vec (Ieee double64) 3 × Vec (Ieee double64) 3, realTriangle t = (![0, 0, 0], ![2 ^ 256, 0, 0], ![0, 2 ^ 256, 0]) ∧
    ∃ m f n, addTriangles true 100 [t] = .ok m ∧ vecGet m.facets 0 = .ok f ∧ calcFacetNormal m f = .ok n ∧ ∀ i, (n i).val? = some 0 := by
  obtain ⟨t, h1, h2⟩ := C120_facet_counterexample double64 (by show 4 ≤ 1024; norm_num)
  have h := addTriangles_eq true 100 [t] (by show 3 * 1 < 100; norm_num)
  obtain ⟨f, n, h3⟩ := h2 true 100 _ (by norm_num) (.of_add h)
  exact ⟨t, h1, _, f, n, h, h3⟩
end Examples
end Verif
