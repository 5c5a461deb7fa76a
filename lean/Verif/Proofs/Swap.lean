import Verif.Model.Intersect
import Verif.Model.Float
import Mathlib.Algebra.Order.Group.Unbundled.Abs

set_option linter.unusedSectionVars false

/-
Signs come out of rounded operations unchanged: used to compare a call with the call for swapped arguments.
-/
namespace Verif

/-- What exact numbers and rounded numbers have in common. -/
class SignedOps (T : Type u) [Zero T] [Add T] [Sub T] [Mul T] [Div T] [Neg T] [LT T] [DecidableLT T] : Prop where
  mul_comm : ∀ a b : T, a * b = b * a
  neg_sub : ∀ a b : T, -(a - b) = b - a
  neg_sub_neg : ∀ a b : T, -a - -b = b - a
  neg_neg : ∀ a : T, - -a = a
  neg_zero : -(0 : T) = 0
  neg_add : ∀ a b : T, -(a + b) = -a + -b
  neg_mul : ∀ a b : T, -a * b = -(a * b)
  neg_div : ∀ a b : T, -a / b = -(a / b)
  neg_div_neg : ∀ a b : T, -a / -b = a / b
  abs_neg : ∀ a : T, stdAbs (-a) = stdAbs a

/-- Exact numbers. -/
instance {K : Type u} [Field K] [LinearOrder K] [IsStrictOrderedRing K] : SignedOps K where
  mul_comm := _root_.mul_comm
  neg_sub := _root_.neg_sub
  neg_sub_neg a b := by ring
  neg_neg := _root_.neg_neg
  neg_zero := _root_.neg_zero
  neg_add a b := by ring
  neg_mul := _root_.neg_mul
  neg_div a b := _root_.neg_div b a
  neg_div_neg := _root_.neg_div_neg_eq
  abs_neg a := by
    unfold stdAbs
    rcases lt_trichotomy a 0 with h | h | h
    · rw [if_neg (by linarith : ¬ -a < 0), if_pos h]
    · subst h; simp
    · rw [if_pos (by linarith : -a < 0), if_neg (by linarith : ¬ a < 0), _root_.neg_neg]

namespace Fl
variable {F : FloatFormat}

theorem round_neg (x : ℝ) : (round (-x) : Fl F) = -round x := Subtype.ext (F.rounds.odd x)

/-- Rounded numbers: rounding treats `x` and `-x` alike. -/
noncomputable instance : SignedOps (Fl F) where
  mul_comm a b := by show round (a.1 * b.1) = round (b.1 * a.1); rw [_root_.mul_comm]
  neg_sub a b := by show -round (a.1 - b.1) = round (b.1 - a.1); rw [← round_neg, _root_.neg_sub]
  neg_sub_neg a b := by show round (-a.1 - -b.1) = round (b.1 - a.1); congr 1; ring
  neg_neg a := Subtype.ext (_root_.neg_neg a.1)
  neg_zero := Subtype.ext (_root_.neg_zero)
  neg_add a b := by show -round (a.1 + b.1) = round (-a.1 + -b.1); rw [← round_neg]; congr 1; ring
  neg_mul a b := by show round (-a.1 * b.1) = -round (a.1 * b.1); rw [← round_neg]; congr 1; ring
  neg_div a b := by show round (-a.1 / b.1) = -round (a.1 / b.1); rw [← round_neg]; congr 1; ring
  neg_div_neg a b := by show round (-a.1 / -b.1) = round (a.1 / b.1); rw [neg_div_neg_eq]
  abs_neg a := by
    have hn : ∀ x : Fl F, x < 0 ↔ x.1 < 0 := fun x => Iff.rfl
    have hv : (-a).1 = -a.1 := rfl
    unfold stdAbs
    rcases lt_trichotomy a.1 0 with h | h | h
    · rw [if_neg (by rw [hn, hv]; linarith), if_pos (by rw [hn]; exact h)]
    · rw [if_neg (by rw [hn, hv]; linarith), if_neg (by rw [hn]; linarith)]
      exact Subtype.ext (by rw [hv, h, _root_.neg_zero])
    · rw [if_pos (by rw [hn, hv]; linarith), if_neg (by rw [hn]; linarith)]
      exact Subtype.ext (by show - -a.1 = a.1; rw [_root_.neg_neg])
end Fl

section
variable {T : Type u} {D : Nat} [Zero T] [Add T] [Sub T] [Mul T] [Div T] [Neg T] [LT T] [DecidableLT T] [SignedOps T]
open SignedOps

theorem so_mul_neg (a b : T) : a * -b = -(a * b) := by rw [SignedOps.mul_comm, SignedOps.neg_mul, SignedOps.mul_comm]

theorem so_foldl_neg (f : Fin D → T) : Fin.foldl D (fun s i => s + -f i) 0 = -Fin.foldl D (fun s i => s + f i) 0 := by
  induction D with
  | zero => simp only [Fin.foldl_zero]; exact SignedOps.neg_zero.symm
  | succ n ih => rw [Fin.foldl_succ_last, Fin.foldl_succ_last, ih fun i => f i.castSucc, SignedOps.neg_add]

theorem so_dot_comm (u v : Vec T D) : dot u v = dot v u := by
  unfold dot; simp only [SignedOps.mul_comm]

theorem so_vsub (u v : Vec T D) : vsub u v = fun i => -vsub v u i := funext fun i => (SignedOps.neg_sub (v i) (u i)).symm

theorem so_dot_neg (u v : Vec T D) : dot u (fun i => -v i) = -dot u v := by
  unfold dot; simp only [so_mul_neg]; exact so_foldl_neg _

theorem so_dot_neg_neg (u v : Vec T D) : dot (fun i => -u i) (fun i => -v i) = dot u v := by
  rw [so_dot_neg, so_dot_comm, so_dot_neg, SignedOps.neg_neg, so_dot_comm]

theorem so_length_vsub [HasSqrt T] (u v : Vec T D) : length (vsub u v) = length (vsub v u) := by
  rw [so_vsub u v, length, so_dot_neg_neg]; rfl

theorem so_cross (u v : Vec T 3) : cross u v = fun i => -cross v u i := by
  funext i
  simp only [cross]
  split_ifs <;> rw [SignedOps.neg_sub] <;> congr 1 <;> exact SignedOps.mul_comm _ _

/-- The closest parameters of the swapped lines are the swapped parameters, bit for bit. -/
theorem cpol_swap [Tol T] (o d o' d' : Vec T D) (eps : T) :
    closestPointOnLineParameters o' d' o d eps = (closestPointOnLineParameters o d o' d' eps).map fun p => ⟨p.s, p.t⟩ := by
  simp only [closestPointOnLineParameters]
  rw [so_vsub o' o, so_dot_neg, so_dot_neg, so_dot_comm d' d, SignedOps.mul_comm (dot d' d') (dot d d)]
  split_ifs
  · rfl
  · simp only [Option.map_some, so_mul_neg, SignedOps.neg_sub_neg]

/-- The parameters of the crossing of two segments of the plane, for the swapped segments. -/
theorem so_params (f s w : Vec T 2) :
    s 0 * f 1 - f 0 * s 1 = -(f 0 * s 1 - s 0 * f 1) ∧
    (-w 0 * f 1 - -w 1 * f 0) / -(f 0 * s 1 - s 0 * f 1) = (f 0 * -w 1 - f 1 * -w 0) / (f 0 * s 1 - s 0 * f 1) ∧
    (s 0 * - -w 1 - s 1 * - -w 0) / -(f 0 * s 1 - s 0 * f 1) = (w 0 * s 1 - w 1 * s 0) / (f 0 * s 1 - s 0 * f 1) := by
  refine ⟨(SignedOps.neg_sub _ _).symm, ?_, ?_⟩
  · rw [SignedOps.neg_mul, SignedOps.neg_mul, so_mul_neg, so_mul_neg, SignedOps.neg_sub_neg, SignedOps.neg_sub_neg,
      ← SignedOps.neg_sub (w 0 * f 1) (w 1 * f 0), SignedOps.neg_div_neg, SignedOps.mul_comm (w 0), SignedOps.mul_comm (w 1)]
  · rw [SignedOps.neg_neg, SignedOps.neg_neg, ← SignedOps.neg_sub (s 1 * w 0) (s 0 * w 1), SignedOps.neg_div_neg, SignedOps.mul_comm (s 1),
      SignedOps.mul_comm (s 0) (w 1)]
end
end Verif
