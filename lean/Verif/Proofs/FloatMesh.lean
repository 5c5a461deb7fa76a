import Verif.Proofs.FloatKdTree
import Verif.Props.SphereMesh

set_option linter.unusedSectionVars false

/-
The mesh builders in floating point arithmetic: closed forms, and operations that are exact.
-/
namespace Verif
open Spec

namespace Fl
variable {F : FloatFormat}

@[simp] theorem val_one : (1 : Fl F).1 = 1 := rfl
@[simp] theorem val_div (a b : Fl F) : (a / b).1 = F.rnd (a.1 / b.1) := rfl
@[simp] theorem val_natCast (n : ℕ) : ((n : ℕ) : Fl F).1 = F.rnd n := rfl
@[simp] theorem val_two : (2 : Fl F).1 = F.rnd 2 := rfl
theorem rnd_val (a : Fl F) : F.rnd a.1 = a.1 := F.rounds.exact a.2

theorem mul_one' (a : Fl F) : a * 1 = a := ext (by rw [val_mul, val_one, mul_one, rnd_val])
theorem one_mul' (a : Fl F) : 1 * a = a := ext (by rw [val_mul, val_one, one_mul, rnd_val])
theorem mul_zero' (a : Fl F) : a * 0 = 0 := ext (by rw [val_mul, val_zero, mul_zero, F.rounds.zero])
theorem zero_mul' (a : Fl F) : 0 * a = 0 := ext (by rw [val_mul, val_zero, zero_mul, F.rounds.zero])
theorem add_zero' (a : Fl F) : a + 0 = a := ext (by rw [val_add, val_zero, add_zero, rnd_val])
theorem zero_add' (a : Fl F) : 0 + a = a := ext (by rw [val_add, val_zero, zero_add, rnd_val])
theorem div_one' (a : Fl F) : a / 1 = a := ext (by rw [val_div, val_one, div_one, rnd_val])
theorem add_comm' (a b : Fl F) : a + b = b + a := ext (by rw [val_add, val_add, add_comm])

theorem dot_three (u v : Vec (Fl F) 3) : dot u v = u 0 * v 0 + u 1 * v 1 + u 2 * v 2 := by
  unfold dot
  simp only [Fin.foldl_succ, Fin.foldl_zero, zero_add']
  rfl

theorem dot_four (u v : Vec (Fl F) 4) : dot u v = u 0 * v 0 + u 1 * v 1 + u 2 * v 2 + u 3 * v 3 := by
  unfold dot
  simp only [Fin.foldl_succ, Fin.foldl_zero, zero_add']
  rfl

/-- Multiplying with the identity matrix is exact. -/
theorem transformVec_identity (v : Vec (Fl F) 3) : transformVec v hmatIdentity = v := by
  funext i
  unfold transformVec toVec3 hmatVec
  rw [dot_four]
  fin_cases i <;>
    simp [hmatIdentity, toHvec, one_mul', zero_mul', add_zero', zero_add']

variable [BEq (HMat (Fl F))] [LawfulBEq (HMat (Fl F))]

theorem placeOf_eq (trafo : HMat (Fl F)) (p : Vec (Fl F) 3) : placeOf trafo p = transformVec p trafo := by
  unfold placeOf
  by_cases h : trafo = hmatIdentity
  · subst h
    rw [if_neg (by simp), transformVec_identity]
  · rw [if_pos (by simpa using h)]
end Fl

/-! ### Gaps between numbers -/

/-- Numbers of at least `2^(p+j)` are multiples of `2^(j+1)`. -/
theorem _root_.Verif.Spec.Representable.multiple {p : ℕ} {emin : Option ℤ} {z : ℝ} (hz : Representable p emin z) (j : ℕ)
    (h : (2 : ℝ) ^ (p + j) ≤ z) : ∃ n : ℤ, z = n * 2 ^ (j + 1) := by
  obtain ⟨m, e, hm, _, rfl⟩ := hz
  have he := two_zpow_pos e
  have h1 : (m : ℝ) < 2 ^ p := by
    have : m < 2 ^ p := lt_of_le_of_lt (le_abs_self m) hm
    exact_mod_cast this
  have h2 : (2 : ℝ) ^ (j : ℤ) < 2 ^ e := by
    rw [zpow_natCast]
    have : (2 : ℝ) ^ p * 2 ^ j < 2 ^ p * 2 ^ e := by
      rw [← pow_add]
      exact lt_of_le_of_lt h (mul_lt_mul_of_pos_right h1 he)
    exact lt_of_mul_lt_mul_left this (by positivity)
  have h3 : (j : ℤ) < e := (zpow_lt_zpow_iff_right₀ (by norm_num)).1 h2
  obtain ⟨d, hd⟩ := Int.eq_ofNat_of_zero_le (show 0 ≤ e - (j + 1) by omega)
  refine ⟨m * 2 ^ d, ?_⟩
  rw [show e = d + (j + 1 : ℕ) by push_cast; omega, zpow_add₀ (by norm_num), zpow_natCast, zpow_natCast]
  push_cast
  ring

/-- A large power of two swallows numbers up to one. -/
theorem _root_.Verif.Spec.Rounds.absorb {p : ℕ} (hp : 1 < p) {emin : Option ℤ} {rnd : ℝ → ℝ} (h : Rounds p emin rnd)
    (he : ∀ k, emin = some k → k ≤ 0) {y : ℝ} (hy : |y| ≤ 1) : rnd (2 ^ (p + 3) + y) = 2 ^ (p + 3) := by
  have hrep : Representable p emin ((2 : ℝ) ^ (p + 3)) := by
    have := representable_two_pow (p := p) (emin := emin) hp (e := ((p + 3 : ℕ) : ℤ)) (by
      intro k hk; have := he k hk; push_cast; omega)
    rwa [zpow_natCast] at this
  have hn := h.nearest (2 ^ (p + 3) + y) _ hrep
  rw [show (2 : ℝ) ^ (p + 3) - (2 ^ (p + 3) + y) = -y by ring, abs_neg] at hn
  obtain ⟨a1, a2⟩ := abs_le.1 (hn.trans hy)
  obtain ⟨b1, b2⟩ := abs_le.1 hy
  have hbig : (2 : ℝ) ^ (p + 2) ≤ rnd (2 ^ (p + 3) + y) := by
    have : (4 : ℝ) ≤ 2 ^ (p + 2) := by
      calc (4 : ℝ) = 2 ^ 2 := by norm_num
        _ ≤ 2 ^ (p + 2) := pow_le_pow_right₀ (by norm_num) (by omega)
    have e : (2 : ℝ) ^ (p + 3) = 2 * 2 ^ (p + 2) := by ring
    linarith
  obtain ⟨n, hn'⟩ := (h.mem _).multiple 2 hbig
  rw [hn'] at a1 a2 ⊢
  have e3 : (2 : ℝ) ^ (p + 3) = ((2 ^ p : ℤ) : ℝ) * 8 := by push_cast; ring
  rw [e3] at a1 a2 ⊢
  norm_num at a1 a2 ⊢
  have c1 : ((n - 2 ^ p : ℤ) : ℝ) < 1 := by push_cast; linarith
  have c2 : (-1 : ℝ) < ((n - 2 ^ p : ℤ) : ℝ) := by push_cast; linarith
  have d1 : n - 2 ^ p < 1 := by exact_mod_cast c1
  have d2 : -1 < n - 2 ^ p := by exact_mod_cast c2
  have : n = 2 ^ p := by omega
  rw [this]; push_cast; ring

/-! ### Closed forms -/
section
variable {T : Type} [LinearOrder T] [Zero T] [One T] [Add T] [Sub T] [Mul T] [Div T] [Neg T] [OfNat T 2] [NatCast T] [HasSqrt T]
  [HasTrig T] [BEq (HMat T)] [BEq (Vec T 3)]

theorem coneBuild_gen [Tol T] (dbg : Bool) (M w : Nat) (rotAlign : Vec T 4 → Vec T 4 → HMat T) (cone : Cone T) (n : Nat)
    (hM : n + 1 < M) (hz : dbg = true → isZero cone.segment.length = false)
    (hd : dbg = true → isEq (length cone.segment.direction) 1 = true) :
    coneBuild dbg M w rotAlign (some cone) n =
      (buildTriangleHalfedgeMesh dbg M w
        (hmatSetTranslation (rotAlign (hvec4 0 0 1 1) (toHvec cone.segment.direction)) cone.segment.source)
        (conePoints cone.radius cone.segment.length n) (coneIdx n)).map some := by
  unfold coneBuild
  rw [Option.isSome_some, geoAssert_true, ok_bind]
  dsimp only
  have h1 : (geoAssert dbg (!isZero cone.segment.length) : Res PUnit) = .ok ⟨⟩ := by
    cases dbg
    · rfl
    · rw [hz rfl]; rfl
  have h2 : (geoAssert dbg (isEq (length cone.segment.direction) 1) : Res PUnit) = .ok ⟨⟩ := by
    cases dbg
    · rfl
    · rw [hd rfl]; rfl
  have h3 : hvec4 (cone.segment.direction 0) (cone.segment.direction 1) (cone.segment.direction 2) 1
      = toHvec cone.segment.direction := by
    funext j; fin_cases j <;> rfl
  rw [h1, ok_bind, h2, ok_bind, h3, calcConeTriangles_eq M _ _ n hM, ok_bind]
  exact bind_some _

theorem cylinderBuild_gen (dbg : Bool) (M w : Nat) (rotAlign : Vec T 4 → Vec T 4 → HMat T) (cyl : Cylinder T) (n : Nat)
    (hn : 2 ≤ n) (hM : 2 * n + 2 < M) :
    cylinderBuild dbg M w rotAlign (some cyl) n =
      (buildTriangleHalfedgeMesh dbg M w
        (hmatSetTranslation (rotAlign (hvec4 0 0 1 1) (toHvec cyl.segment.direction)) cyl.segment.source)
        (cylPoints cyl.radius cyl.segment.length n) (cylIdx n)).map some := by
  unfold cylinderBuild
  rw [Option.isSome_some, geoAssert_true, ok_bind]
  dsimp only
  rw [calcCylinderTriangles_eq dbg M _ _ n hn hM, ok_bind]
  exact bind_some _

theorem spherePoints_length_gen (s : Sphere T) (p n : Nat) : (calcSpherePoints s p n).length = (p - 1) * n + 2 := by
  unfold calcSpherePoints
  dsimp only
  split <;> simp [List.length_flatMap]

theorem sphereBuild_gen (dbg : Bool) (M w : Nat) (b : SphereBuilder T) (hp : 2 ≤ b.polarCount) (hn : 1 ≤ b.azimuthCount)
    (hM : (b.polarCount - 1) * b.azimuthCount + 2 < M) :
    b.build dbg M w = (buildTriangleHalfedgeMesh dbg M w hmatIdentity
      (calcSpherePoints b.theSphere b.polarCount b.azimuthCount) (sphIdx b.polarCount b.azimuthCount)).map
      fun m => (m, { b with sphere := some b.theSphere }) := by
  unfold SphereBuilder.build
  dsimp only
  rw [spherePoints_length_gen, toIdx_of_lt hM, calcSphereTriangleIndices_eq hp hn hM]
  exact bind_pair _ _

theorem conePoints_length (r h : T) (n : Nat) : (conePoints r h n).length = n + 2 := by
  simp [conePoints, discretizeCircle_length]
end

/-- `2^(prec+3)`, with gaps of sixteen to the next number. -/
noncomputable def Fl.big (F : FloatFormat) : Fl F := ⟨2 ^ (F.prec + 3), by
  have := representable_two_pow (p := F.prec) (emin := F.emin) F.one_lt_prec (e := ((F.prec + 3 : ℕ) : ℤ)) (by
    intro k hk; have := F.emin_le k hk; push_cast; omega)
  rwa [zpow_natCast] at this⟩

theorem Fl.abs_mul_le_one {F : FloatFormat} {a b : Fl F} (ha : |a.1| ≤ 1) (hb : |b.1| ≤ 1) : |(a * b).1| ≤ 1 := by
  rw [Fl.val_mul, F.rounds.abs]
  apply F.rounds.of_le F.one_mem
  rw [abs_mul]
  exact mul_le_one₀ ha (abs_nonneg _) hb

theorem heVector_mem {V : Type} {m : HalfedgeMesh V} {h : Halfedge} {v : V} (hv : m.heVector h = .ok v) : v ∈ m.points := by
  unfold HalfedgeMesh.heVector at hv
  cases h1 : m.heVertex h with
  | error e => rw [h1, error_bind] at hv; exact nomatch hv
  | ok x => rw [h1, ok_bind] at hv; exact List.mem_of_getElem? (vecGet_eq_ok.1 hv)

theorem heNextVector_mem {V : Type} {m : HalfedgeMesh V} {h : Halfedge} {v : V} (hv : m.heNextVector h = .ok v) :
    v ∈ m.points := by
  unfold HalfedgeMesh.heNextVector at hv
  cases h1 : m.heNextVertex h with
  | error e => rw [h1, error_bind] at hv; exact nomatch hv
  | ok x => rw [h1, ok_bind] at hv; exact List.mem_of_getElem? (vecGet_eq_ok.1 hv)
end Verif
