import Verif.Proofs.Ieee
import Verif.Proofs.FloatKdTree
import Mathlib.Data.EReal.Basic

set_option linter.unusedSectionVars false

/-
NaN and infinities in sums of squares, and the k-d tree search in IEEE arithmetic.
-/
namespace Verif
open Spec
open KdNode
namespace Ieee
variable {F : IeeeFormat} {D : Nat}

/-! ### NaN and infinities -/

@[simp] theorem nan_add (a : Ieee F) : nan + a = nan := rfl
@[simp] theorem add_nan (a : Ieee F) : a + nan = nan := by cases a <;> rfl
@[simp] theorem nan_mul (a : Ieee F) : nan * a = nan := rfl
@[simp] theorem mul_nan (a : Ieee F) : a * nan = nan := by cases a <;> rfl
@[simp] theorem neg_nan : -(nan : Ieee F) = nan := rfl
@[simp] theorem nan_sub (a : Ieee F) : nan - a = nan := rfl
@[simp] theorem sub_nan (a : Ieee F) : a - nan = nan := add_nan a
@[simp] theorem nan_div (a : Ieee F) : nan / a = nan := rfl
@[simp] theorem div_nan (a : Ieee F) : a / nan = nan := by cases a <;> rfl
@[simp] theorem sqrt_nan : HasSqrt.sqrt (nan : Ieee F) = nan := rfl
@[simp] theorem not_nan_lt (a : Ieee F) : ¬ nan < a := fun h => h
@[simp] theorem not_lt_nan (a : Ieee F) : ¬ a < nan := by cases a <;> exact fun h => h
@[simp] theorem nan_beq (a : Ieee F) : (nan == a) = false := rfl
@[simp] theorem beq_nan (a : Ieee F) : (a == nan) = false := by cases a <;> rfl

/-- NaN or an infinity. -/
def Wild (a : Ieee F) : Prop := a = nan ∨ ∃ s, a = inf s

theorem wild_or (a : Ieee F) : Wild a ∨ ∃ r, a.val? = some r := by
  cases a with
  | nan => exact .inl (.inl rfl)
  | inf s => exact .inl (.inr ⟨s, rfl⟩)
  | negZero => exact .inr ⟨0, rfl⟩
  | fin x h => exact .inr ⟨x.1, rfl⟩

theorem Wild.neg {a : Ieee F} (h : Wild a) : Wild (-a) := by
  rcases h with rfl | ⟨s, rfl⟩
  · exact .inl rfl
  · exact .inr ⟨!s, rfl⟩

theorem Wild.add_left {a : Ieee F} (h : Wild a) (b : Ieee F) : Wild (a + b) := by
  rcases h with rfl | ⟨s, rfl⟩
  · exact .inl rfl
  · cases b with
    | nan => exact .inl rfl
    | inf t =>
      show Wild (if s = t then inf s else nan)
      split_ifs
      · exact .inr ⟨s, rfl⟩
      · exact .inl rfl
    | negZero => exact .inr ⟨s, rfl⟩
    | fin x h => exact .inr ⟨s, rfl⟩

theorem Wild.add_right (a : Ieee F) {b : Ieee F} (h : Wild b) : Wild (a + b) := by
  rcases h with rfl | ⟨t, rfl⟩
  · exact .inl (add_nan a)
  · cases a with
    | nan => exact .inl rfl
    | inf s =>
      show Wild (if s = t then inf s else nan)
      split_ifs
      · exact .inr ⟨s, rfl⟩
      · exact .inl rfl
    | negZero => exact .inr ⟨t, rfl⟩
    | fin x h => exact .inr ⟨t, rfl⟩

/-- NaN, plus infinity, or a finite number that is not negative: what squares and sums of squares can be. -/
def Nonneg (a : Ieee F) : Prop := a = nan ∨ a = inf false ∨ ∃ r, a.val? = some r ∧ 0 ≤ r

/-- NaN or plus infinity. -/
def Big (a : Ieee F) : Prop := a = nan ∨ a = inf false

theorem ofReal_nonneg {s : Bool} {r : ℝ} (h : 0 ≤ r) : Nonneg (ofReal (F := F) s r) := by
  have hq : 0 ≤ (Fl.round r : Fl F.toFloatFormat).1 := F.rounds.nonneg h
  unfold ofReal
  simp only
  split_ifs with h0 hs h2
  · exact .inr (.inr ⟨0, rfl, le_rfl⟩)
  · exact .inr (.inr ⟨0, rfl, le_rfl⟩)
  · exact .inr (.inr ⟨_, rfl, hq⟩)
  · refine .inr (.inl ?_)
    congr 1
    exact @decide_eq_false _ (Classical.propDecidable _) (not_lt.2 hq)

theorem mul_self_nonneg' (a : Ieee F) : Nonneg (a * a) := by
  cases a with
  | nan => exact .inl rfl
  | inf s =>
    refine .inr (.inl ?_)
    show (@ite (Ieee F) _ (Classical.propDecidable _) _ _) = _
    rw [if_neg (by simp [val?])]
    cases s <;> rfl
  | negZero =>
    obtain ⟨s, hs⟩ := mul_def (F := F) (a := negZero) (b := negZero) rfl rfl
    rw [hs]; exact ofReal_nonneg (by simp)
  | fin x h =>
    obtain ⟨s, hs⟩ := mul_def (F := F) (a := fin x h) (b := fin x h) rfl rfl
    rw [hs]; exact ofReal_nonneg (mul_self_nonneg _)

theorem Wild.mul_self {a : Ieee F} (h : Wild a) : Big (a * a) := by
  rcases h with rfl | ⟨s, rfl⟩
  · exact .inl rfl
  · refine .inr ?_
    show (@ite (Ieee F) _ (Classical.propDecidable _) _ _) = _
    rw [if_neg (by simp [val?])]
    cases s <;> rfl

theorem Nonneg.add {a b : Ieee F} (ha : Nonneg a) (hb : Nonneg b) : Nonneg (a + b) := by
  rcases ha with rfl | rfl | ⟨r, hr, h0⟩
  · exact .inl rfl
  · rcases hb with rfl | rfl | ⟨t, ht, h1⟩
    · exact .inl rfl
    · exact .inr (.inl rfl)
    · cases b <;> simp only [val?, reduceCtorEq] at ht
      · exact .inr (.inl rfl)
      · exact .inr (.inl rfl)
  · rcases hb with rfl | rfl | ⟨t, ht, h1⟩
    · exact .inl (add_nan a)
    · cases a <;> simp only [val?, reduceCtorEq] at hr
      · exact .inr (.inl rfl)
      · exact .inr (.inl rfl)
    · obtain ⟨s, hs⟩ := add_def hr ht
      rw [hs]; exact ofReal_nonneg (add_nonneg h0 h1)

theorem Big.add_left {a b : Ieee F} (ha : Big a) (hb : Nonneg b) : Big (a + b) := by
  rcases ha with rfl | rfl
  · exact .inl rfl
  · rcases hb with rfl | rfl | ⟨t, ht, h1⟩
    · exact .inl rfl
    · exact .inr rfl
    · cases b <;> simp only [val?, reduceCtorEq] at ht <;> exact .inr rfl

theorem Big.add_right {a b : Ieee F} (ha : Nonneg a) (hb : Big b) : Big (a + b) := by
  rcases hb with rfl | rfl
  · exact .inl (add_nan a)
  · rcases ha with rfl | rfl | ⟨t, ht, h1⟩
    · exact .inl rfl
    · exact .inr rfl
    · cases a <;> simp only [val?, reduceCtorEq] at ht <;> exact .inr rfl

theorem foldl_nonneg {n : Nat} (f : Fin n → Ieee F) (h : ∀ i, Nonneg (f i)) : Nonneg (Fin.foldl n (fun s i => s + f i) 0) := by
  induction n with
  | zero => exact .inr (.inr ⟨0, rfl, le_rfl⟩)
  | succ n ih => rw [Fin.foldl_succ_last]; exact (ih _ fun i => h _).add (h _)

theorem foldl_big {n : Nat} (f : Fin n → Ieee F) (h : ∀ i, Nonneg (f i)) (j : Fin n) (hj : Big (f j)) :
    Big (Fin.foldl n (fun s i => s + f i) 0) := by
  induction n with
  | zero => exact j.elim0
  | succ n ih =>
    rw [Fin.foldl_succ_last]
    induction j using Fin.lastCases with
    | last => exact Big.add_right (foldl_nonneg _ fun i => h _) hj
    | cast j => exact (ih (fun i => f i.castSucc) (fun i => h _) j hj).add_left (h _)

theorem foldl_nan {n : Nat} (f : Fin n → Ieee F) (j : Fin n) (hj : f j = nan) : Fin.foldl n (fun s i => s + f i) 0 = nan := by
  induction n with
  | zero => exact j.elim0
  | succ n ih =>
    rw [Fin.foldl_succ_last]
    induction j using Fin.lastCases with
    | last => rw [hj, add_nan]
    | cast j => rw [ih (fun i => f i.castSucc) j hj, nan_add]

theorem Big.sqrt {a : Ieee F} (h : Big a) : Big (HasSqrt.sqrt a) := by
  rcases h with rfl | rfl
  · exact .inl rfl
  · exact .inr rfl

theorem Big.not_lt {a : Ieee F} (h : Big a) (b : Ieee F) : ¬ a < b := by
  rcases h with rfl | rfl
  · exact not_nan_lt b
  · cases b with
    | nan => exact not_lt_nan _
    | inf t => exact fun hc => Bool.noConfusion hc.1
    | negZero => exact fun hc => Bool.noConfusion (show false = true from hc)
    | fin x h => exact fun hc => Bool.noConfusion (show false = true from hc)

theorem wild_sub {a b : Ieee F} (h : Wild a ∨ Wild b) : Wild (a - b) := by
  rcases h with h | h
  · exact h.add_left _
  · exact Wild.add_right _ h.neg

/-- A coordinate that is NaN or infinite makes the distance NaN or infinite. -/
theorem kdDistance_big {a b : Vec (Ieee F) D} (j : Fin D) (h : Wild (a j) ∨ Wild (b j)) : Big (kdDistance a b) :=
  (foldl_big (fun i => (a i - b i) * (a i - b i)) (fun _ => mul_self_nonneg' _) j (wild_sub h).mul_self).sqrt

theorem kdDistance_nan {a b : Vec (Ieee F) D} (j : Fin D) (h : a j = nan ∨ b j = nan) : kdDistance a b = nan := by
  unfold kdDistance
  rw [foldl_nan _ j, sqrt_nan]
  rcases h with h | h <;> rw [h] <;> simp

/-! ### The order without NaN -/

/-- The place of a value in the order of the extended real numbers (NaN: anywhere, here at the top). -/
noncomputable def ord : Ieee F → EReal
  | nan => ⊤
  | inf true => ⊥
  | inf false => ⊤
  | negZero => (0 : ℝ)
  | fin x _ => (x.1 : ℝ)

theorem ord_of_val {a : Ieee F} {r : ℝ} (h : a.val? = some r) : ord a = (r : ℝ) := by
  cases a <;> simp only [val?, Option.some.injEq, reduceCtorEq] at h <;> subst h <;> rfl

theorem lt_iff_ord {a b : Ieee F} (hb : b ≠ nan) : a < b ↔ ord a < ord b := by
  cases b with
  | nan => exact absurd rfl hb
  | inf t =>
    cases a with
    | nan => cases t <;> simp [ord]
    | inf s => cases s <;> cases t <;> simp [ord] <;> first | exact ⟨rfl, rfl⟩ | exact fun h => Bool.noConfusion h.1 | exact fun h => Bool.noConfusion h.2
    | negZero => cases t <;> simp only [ord] <;> constructor <;> intro h <;> first | exact EReal.coe_lt_top _ | rfl | exact absurd h not_lt_bot | exact absurd h (by exact fun h => Bool.noConfusion (show true = false from h))
    | fin x hx => cases t <;> simp only [ord] <;> constructor <;> intro h <;> first | exact EReal.coe_lt_top _ | rfl | exact absurd h not_lt_bot | exact absurd h (by exact fun h => Bool.noConfusion (show true = false from h))
  | negZero =>
    cases a with
    | nan => simp [ord]
    | inf s => cases s <;> simp only [ord] <;> constructor <;> intro h <;> first | exact EReal.bot_lt_coe _ | rfl | exact absurd h not_top_lt | exact absurd h (by exact fun h => Bool.noConfusion (show false = true from h))
    | negZero => simp only [ord, EReal.coe_lt_coe_iff]; exact Iff.rfl
    | fin x hx => simp only [ord, EReal.coe_lt_coe_iff]; exact Iff.rfl
  | fin y hy =>
    cases a with
    | nan => simp [ord]
    | inf s => cases s <;> simp only [ord] <;> constructor <;> intro h <;> first | exact EReal.bot_lt_coe _ | rfl | exact absurd h not_top_lt | exact absurd h (by exact fun h => Bool.noConfusion (show false = true from h))
    | negZero => simp only [ord, EReal.coe_lt_coe_iff]; exact Iff.rfl
    | fin x hx => simp only [ord, EReal.coe_lt_coe_iff]; exact Iff.rfl

theorem not_lt_iff_ord {a b : Ieee F} (hb : b ≠ nan) : ¬ a < b ↔ ord b ≤ ord a := by rw [lt_iff_ord hb, not_lt]

/-! ### Equality -/

theorem beq_iff {a b : Ieee F} : (a == b) = true ↔ a ≠ nan ∧ b ≠ nan ∧ ord a = ord b := by
  cases a with
  | nan => simp
  | inf s =>
    cases b with
    | nan => simp
    | inf t =>
      rw [show ((inf s : Ieee F) == inf t) = (s == t) from rfl]
      cases s <;> cases t <;> simp [ord]
    | negZero => cases s <;> simp [ord]
    | fin y hy => cases s <;> simp [ord]
  | negZero =>
    cases b with
    | nan => simp
    | inf t => cases t <;> simp [ord]
    | negZero => simp only [ne_eq, reduceCtorEq, not_false_eq_true, true_and]; simp only [iff_true]; exact @decide_eq_true _ (Classical.propDecidable _) rfl
    | fin y hy =>
      simp only [ne_eq, reduceCtorEq, not_false_eq_true, true_and, ord, EReal.coe_eq_coe_iff]
      exact ⟨fun h => by simpa [val?] using @of_decide_eq_true _ (Classical.propDecidable _) h, fun h => @decide_eq_true _ (Classical.propDecidable _) (by simpa [val?] using h)⟩
  | fin x hx =>
    cases b with
    | nan => simp
    | inf t => cases t <;> simp [ord]
    | negZero =>
      simp only [ne_eq, reduceCtorEq, not_false_eq_true, true_and, ord, EReal.coe_eq_coe_iff]
      exact ⟨fun h => by simpa [val?] using @of_decide_eq_true _ (Classical.propDecidable _) h, fun h => @decide_eq_true _ (Classical.propDecidable _) (by simpa [val?] using h)⟩
    | fin y hy =>
      simp only [ne_eq, reduceCtorEq, not_false_eq_true, true_and, ord, EReal.coe_eq_coe_iff]
      exact ⟨fun h => by simpa [val?] using @of_decide_eq_true _ (Classical.propDecidable _) h, fun h => @decide_eq_true _ (Classical.propDecidable _) (by simpa [val?] using h)⟩

theorem vec_beq_iff {a b : Vec (Ieee F) D} : (a == b) = true ↔ ∀ i, (a i == b i) = true :=
  ⟨@of_decide_eq_true _ (Classical.propDecidable _), @decide_eq_true _ (Classical.propDecidable _)⟩

/-- IEEE equality is symmetric and transitive; it is not reflexive because of NaN. -/
instance : PartialEquivBEq (Vec (Ieee F) D) where
  symm {a b} h := by
    rw [vec_beq_iff] at h ⊢
    intro i
    have := beq_iff.1 (h i)
    exact beq_iff.2 ⟨this.2.1, this.1, this.2.2.symm⟩
  trans {a b c} h1 h2 := by
    rw [vec_beq_iff] at h1 h2 ⊢
    intro i
    have e1 := beq_iff.1 (h1 i)
    have e2 := beq_iff.1 (h2 i)
    exact beq_iff.2 ⟨e1.1, e2.2.1, e1.2.2.trans e2.2.2⟩

/-- Equal vectors compare alike. -/
instance : LtCongr (Ieee F) D where
  lt_congr a b c i h hl := by
    have e := beq_iff.1 (vec_beq_iff.1 h i)
    have hc : c i ≠ nan := by intro hc; rw [hc] at hl; exact not_lt_nan _ hl
    rw [lt_iff_ord hc] at hl ⊢
    rwa [← e.2.2]

/-! ### Distances of regular points -/

/-- The number a finite value stands for. -/
def toFl : Ieee F → Fl F.toFloatFormat
  | fin x _ => x
  | _ => 0

/-- A finite number of size at most `2 ^ k`, clear of underflow. -/
def Reg (k : ℕ) (a : Ieee F) : Prop := ∃ r, a.val? = some r ∧ |r| ≤ 2 ^ k ∧ OnGrid F.prec F.emin r

theorem Reg.near {k : ℕ} {a : Ieee F} (h : Reg k a) : Near k a (toFl a) ∧ OnGrid F.prec F.emin (toFl a).1 := by
  obtain ⟨r, h1, h2, h3⟩ := h
  cases a <;> simp only [val?, Option.some.injEq, reduceCtorEq] at h1 <;> subst h1
  · exact ⟨⟨rfl, h2⟩, h3⟩
  · exact ⟨⟨rfl, h2⟩, h3⟩

/-- The numbers of a vector of finite values. -/
def flOf (v : Vec (Ieee F) D) : Vec (Fl F.toFloatFormat) D := fun i => toFl (v i)

theorem near_kdDistance {k : ℕ} {a b : Vec (Ieee F) D} {x y : Vec (Fl F.toFloatFormat) D} (ha : NearVec k a x) (hb : NearVec k b y)
    (hk : 2 * (k + 1) + D < F.emax) : Near (k + 1 + D) (kdDistance a b) (kdDistance x y) := by
  unfold kdDistance
  refine Near.sqrt (k := 2 * (k + 1) + D) ?_ (kdAcc_nonneg x y D le_rfl) (by omega) (by omega)
  have h1 : ∀ i, Near (k + 1) (a i - b i) (x i - y i) := fun i => (ha i).sub (hb i) (by omega)
  refine near_foldl _ _ (fun i => ?_) hk
  rw [two_mul]
  exact (h1 i).mul (h1 i) (by omega)

theorem reg_kdDistance {k : ℕ} {a b : Vec (Ieee F) D} (ha : ∀ i, Reg k (a i)) (hb : ∀ i, Reg k (b i)) (hk : 2 * (k + 1) + D < F.emax) :
    Near (k + 1 + D) (kdDistance a b) (kdDistance (flOf a) (flOf b)) :=
  near_kdDistance (fun i => (ha i).near.1) (fun i => (hb i).near.1) hk

theorem reg_kdDistance_comm {k : ℕ} {a b : Vec (Ieee F) D} (ha : ∀ i, Reg k (a i)) (hb : ∀ i, Reg k (b i)) (hk : 2 * (k + 1) + D < F.emax) :
    ord (kdDistance a b) = ord (kdDistance b a) := by
  rw [ord_of_val (reg_kdDistance ha hb hk).val, ord_of_val (reg_kdDistance hb ha hk).val, kdDistance_comm_fl]

theorem Big.ord_eq {a : Ieee F} (h : Big a) : ord a = ⊤ := by rcases h with rfl | rfl <;> rfl

theorem Wild.not_reg {a : Ieee F} (h : Wild a) {k : ℕ} : ¬ Reg k a := by
  rintro ⟨r, h1, _⟩
  rcases h with rfl | ⟨s, rfl⟩ <;> simp [val?] at h1

/-- A point all of whose coordinates are regular, or one whose distances are NaN or infinite. -/
theorem reg_or_big {k : ℕ} {p : Vec (Ieee F) D} (h : ∀ i, Wild (p i) ∨ Reg k (p i)) (q : Vec (Ieee F) D) :
    (∀ i, Reg k (p i)) ∨ Big (kdDistance p q) ∧ Big (kdDistance q p) := by
  by_cases hc : ∃ i, Wild (p i)
  · obtain ⟨i, hi⟩ := hc
    exact .inr ⟨kdDistance_big i (.inl hi), kdDistance_big i (.inr hi)⟩
  · exact .inl fun i => (h i).resolve_left fun hw => hc ⟨i, hw⟩

section
variable [NeZero D] {P : Type} {w : Nat}

/-- The other side of a splitting plane is not nearer than the plane (smaller coordinates searched first). -/
theorem prune_left {k : ℕ} {q r : Vec (Ieee F) D} {c : Ieee F} (a : Fin D) (hk : 2 * (k + 1) + D < F.emax) (hq : ∀ i, Reg k (q i))
    (hr : ∀ i, Reg k (r i)) (hc : Wild c ∨ Reg k c) (h1 : q a - c < 0) (h2 : ¬ r a < c) :
    ord (stdAbs (q a - c)) ≤ ord (kdDistance r q) := by
  rcases hc with (rfl | ⟨s, rfl⟩) | hc
  · simp at h1
  · exfalso
    obtain ⟨x, hx, _⟩ := hr a
    obtain ⟨y, hy, _⟩ := hq a
    cases s with
    | false =>
      apply h2
      rw [lt_iff_ord (by simp), ord_of_val hx]
      exact EReal.coe_lt_top _
    | true =>
      revert h1
      generalize q a = z at hy ⊢
      cases z <;> simp only [val?, reduceCtorEq] at hy <;> exact Big.not_lt (.inr rfl) _
  · have nq := (hq a).near.1
    have nc := hc.near.1
    have nd := nq.sub nc (by omega)
    have h1' := (nd.lt_iff near_zero).1 h1
    have h2' : ¬ toFl (r a) < toFl c := fun h => h2 (((hr a).near.1.lt_iff nc).2 h)
    have := NearestSound.left (flOf q) (fun _ => toFl c) (flOf r) a (fun i => (hq i).near.2) (fun _ => hc.near.2) (fun i => (hr i).near.2) h1' h2'
    rw [ord_of_val nd.stdAbs.val, ord_of_val (reg_kdDistance hr hq hk).val, EReal.coe_le_coe_iff]
    exact not_lt.1 this

theorem prune_right {k : ℕ} {q r : Vec (Ieee F) D} {c : Ieee F} (a : Fin D) (hk : 2 * (k + 1) + D < F.emax) (hq : ∀ i, Reg k (q i))
    (hr : ∀ i, Reg k (r i)) (hc : Wild c ∨ Reg k c) (h1 : ¬ q a - c < 0) (h2 : r a < c) :
    ord (stdAbs (q a - c)) ≤ ord (kdDistance r q) := by
  rcases hc with (rfl | ⟨s, rfl⟩) | hc
  · simp at h2
  · exfalso
    obtain ⟨x, hx, _⟩ := hr a
    obtain ⟨y, hy, _⟩ := hq a
    cases s with
    | true =>
      rw [lt_iff_ord (by simp)] at h2
      exact not_lt_bot h2
    | false =>
      apply h1
      generalize q a = z at hy ⊢
      cases z <;> simp only [val?, reduceCtorEq] at hy <;> rfl
  · have nq := (hq a).near.1
    have nc := hc.near.1
    have nd := nq.sub nc (by omega)
    have h1' : ¬ flOf q a - toFl c < 0 := fun h => h1 ((nd.lt_iff near_zero).2 h)
    have h2' : toFl (r a) < toFl c := ((hr a).near.1.lt_iff nc).1 h2
    have := NearestSound.right (flOf q) (fun _ => toFl c) (flOf r) a (fun i => (hq i).near.2) (fun _ => hc.near.2) (fun i => (hr i).near.2) h1' h2'
    rw [ord_of_val nd.stdAbs.val, ord_of_val (reg_kdDistance hr hq hk).val, EReal.coe_le_coe_iff]
    exact not_lt.1 this

/-- What one call of `nearestHelper` on the subtree `t` hanging at `path` achieves. -/
structure Post (q : Vec (Ieee F) D) (t : KdNode (Vec (Ieee F) D) P) (path : Path) (best best' : Path × Ieee F) : Prop where
  ne_nan : best'.2 ≠ nan
  le_old : ord best'.2 ≤ ord best.2
  le_all : ∀ e ∈ entries t, ord best'.2 ≤ ord (kdDistance e.1 q)
  src : best' = best ∨ ∃ rest e, best'.1 = path ++ rest ∧ t.get? rest = some e ∧ best'.2 = kdDistance e.1 q

theorem nearest_post_ieee {k : ℕ} (hk : 2 * (k + 1) + D < F.emax) (q : Vec (Ieee F) D) (hq : ∀ i, Reg k (q i)) (t : KdNode (Vec (Ieee F) D) P) (path : Path)
    (d : BitVec w) (best : Path × Ieee F) (hb : best.2 ≠ nan) (hi : Inv t d) (ht : ∀ e ∈ entries t, ∀ i, Wild (e.1 i) ∨ Reg k (e.1 i)) :
    Post q t path best (nearestHelper q t path d best) := by
  induction t generalizing path d best with
  | nil => exact ⟨hb, le_refl _, by simp [entries], .inl rfl⟩
  | node p pl l r ihl ihr =>
    obtain ⟨hl, hr, il, ir⟩ := hi
    have dp := ht (p, pl) (by simp [entries])
    have dl : ∀ e ∈ entries l, ∀ i, Wild (e.1 i) ∨ Reg k (e.1 i) := fun e he => ht e (by simp [entries, he])
    have dr : ∀ e ∈ entries r, ∀ i, Wild (e.1 i) ∨ Reg k (e.1 i) := fun e he => ht e (by simp [entries, he])
    simp only [nearestHelper]
    have hb1 : (if kdDistance p q < best.2 then (path, kdDistance p q) else best).2 ≠ nan ∧
        ord (if kdDistance p q < best.2 then (path, kdDistance p q) else best).2 ≤ ord best.2 ∧
        ord (if kdDistance p q < best.2 then (path, kdDistance p q) else best).2 ≤ ord (kdDistance p q) ∧
        ((if kdDistance p q < best.2 then (path, kdDistance p q) else best) = best ∨
         (if kdDistance p q < best.2 then (path, kdDistance p q) else best) = (path, kdDistance p q)) := by
      split
      · rename_i h
        exact ⟨fun hc => by rw [show kdDistance p q = nan from hc] at h; exact not_nan_lt _ h, ((lt_iff_ord hb).1 h).le, le_refl _, .inr rfl⟩
      · rename_i h; exact ⟨hb, le_refl _, (not_lt_iff_ord hb).1 h, .inl rfl⟩
    obtain ⟨b0, b1, b2, b3⟩ := hb1
    revert b0 b1 b2 b3
    generalize (if kdDistance p q < best.2 then (path, kdDistance p q) else best) = best1
    intro b0 b1 b2 b3
    have liftSrc : ∀ (b' : Path × Ieee F) (side : Bool) (c : KdNode (Vec (Ieee F) D) P),
        (∀ rest, (node p pl l r).get? (side :: rest) = c.get? rest) →
        ∀ (b0 : Path × Ieee F), (b0 = best ∨ ∃ rest e, b0.1 = path ++ rest ∧ (node p pl l r).get? rest = some e ∧ b0.2 = kdDistance e.1 q) →
        (b' = b0 ∨ ∃ rest e, b'.1 = (path ++ [side]) ++ rest ∧ c.get? rest = some e ∧ b'.2 = kdDistance e.1 q) →
        (b' = best ∨ ∃ rest e, b'.1 = path ++ rest ∧ (node p pl l r).get? rest = some e ∧ b'.2 = kdDistance e.1 q) := by
      intro b' side c hc b0 h0 h
      rcases h with rfl | ⟨rest, e, h1, h2, h3⟩
      · exact h0
      · exact .inr ⟨side :: rest, e, by simpa using h1, by rw [hc]; exact h2, h3⟩
    have hget : ∀ rest, (node p pl l r).get? (false :: rest) = l.get? rest := fun _ => rfl
    have hget' : ∀ rest, (node p pl l r).get? (true :: rest) = r.get? rest := fun _ => rfl
    have h1 : best1 = best ∨ ∃ rest e, best1.1 = path ++ rest ∧ (node p pl l r).get? rest = some e ∧ best1.2 = kdDistance e.1 q := by
      rcases b3 with rfl | rfl
      · exact .inl rfl
      · exact .inr ⟨[], (p, pl), by simp, rfl, rfl⟩
    by_cases hd : q (axisOf D d) - p (axisOf D d) < 0
    · simp only [hd, if_true]
      have pL := ihl (path ++ [false]) (d + 1) best1 b0 il dl
      revert pL
      generalize nearestHelper q l (path ++ [false]) (d + 1) best1 = best2
      intro pL
      have h2 := liftSrc best2 false l hget best1 h1 pL.src
      by_cases hp : stdAbs (q (axisOf D d) - p (axisOf D d)) < best2.2
      · simp only [hp, if_true]
        have pR := ihr (path ++ [true]) (d + 1) best2 pL.ne_nan ir dr
        revert pR
        generalize nearestHelper q r (path ++ [true]) (d + 1) best2 = best3
        intro pR
        refine ⟨pR.ne_nan, le_trans pR.le_old (le_trans pL.le_old b1), ?_, liftSrc best3 true r hget' best2 h2 pR.src⟩
        intro e he
        simp only [entries, List.mem_cons, List.mem_append] at he
        rcases he with rfl | he | he
        · exact le_trans pR.le_old (le_trans pL.le_old b2)
        · exact le_trans pR.le_old (pL.le_all e he)
        · exact pR.le_all e he
      · simp only [hp, if_false]
        refine ⟨pL.ne_nan, le_trans pL.le_old b1, ?_, h2⟩
        intro e he
        simp only [entries, List.mem_cons, List.mem_append] at he
        rcases he with rfl | he | he
        · exact le_trans pL.le_old b2
        · exact pL.le_all e he
        · rcases reg_or_big (dr e he) q with hreg | ⟨hbig, _⟩
          · exact le_trans ((not_lt_iff_ord pL.ne_nan).1 hp) (prune_left _ hk hq hreg (dp _) hd (hr e he).1)
          · rw [hbig.ord_eq]; exact le_top
    · simp only [hd, if_false]
      have pR := ihr (path ++ [true]) (d + 1) best1 b0 ir dr
      revert pR
      generalize nearestHelper q r (path ++ [true]) (d + 1) best1 = best2
      intro pR
      have h2 := liftSrc best2 true r hget' best1 h1 pR.src
      by_cases hp : stdAbs (q (axisOf D d) - p (axisOf D d)) < best2.2
      · simp only [hp, if_true]
        have pL := ihl (path ++ [false]) (d + 1) best2 pR.ne_nan il dl
        revert pL
        generalize nearestHelper q l (path ++ [false]) (d + 1) best2 = best3
        intro pL
        refine ⟨pL.ne_nan, le_trans pL.le_old (le_trans pR.le_old b1), ?_, liftSrc best3 false l hget best2 h2 pL.src⟩
        intro e he
        simp only [entries, List.mem_cons, List.mem_append] at he
        rcases he with rfl | he | he
        · exact le_trans pL.le_old (le_trans pR.le_old b2)
        · exact pL.le_all e he
        · exact le_trans pL.le_old (pR.le_all e he)
      · simp only [hp, if_false]
        refine ⟨pR.ne_nan, le_trans pR.le_old b1, ?_, h2⟩
        intro e he
        simp only [entries, List.mem_cons, List.mem_append] at he
        rcases he with rfl | he | he
        · exact le_trans pR.le_old b2
        · rcases reg_or_big (dl e he) q with hreg | ⟨hbig, _⟩
          · exact le_trans ((not_lt_iff_ord pR.ne_nan).1 hp) (prune_right _ hk hq hreg (dp _) hd (hl e he).1)
          · rw [hbig.ord_eq]; exact le_top
        · exact pR.le_all e he

/-- If no distance compares as smaller than the first one, the first node is the answer. -/
theorem nearest_stays (q : Vec (Ieee F) D) (t : KdNode (Vec (Ieee F) D) P) (path : Path) (d : BitVec w) (best : Path × Ieee F)
    (h : ∀ e ∈ entries t, ¬ kdDistance e.1 q < best.2) : nearestHelper q t path d best = best := by
  induction t generalizing path d with
  | nil => rfl
  | node p pl l r ihl ihr =>
    have hp := h (p, pl) (by simp [entries])
    have hl := fun path d => ihl path d fun e he => h e (by simp [entries, he])
    have hr := fun path d => ihr path d fun e he => h e (by simp [entries, he])
    simp only [nearestHelper, if_neg hp]
    split_ifs <;> simp only [hl, hr]
end
end Ieee
end Verif
