import Verif.Props.FloatBox
import Verif.Props.IeeeFinite
import Verif.Props.IeeeRayBox

set_option linter.unusedSectionVars false

/-
C168: the centre of a box with IEEE numbers.
-/
namespace Verif
open Spec Ieee

section
variable {F : IeeeFormat} {D : Nat}

theorem two_val : (2 : Ieee F).val? = some 2 := by
  refine ofReal_val ?_ ?_
  · have := pow_mem F.toFloatFormat 1
    rwa [pow_one] at this
  · rw [abs_two]
    calc (2 : ℝ) = 2 ^ 1 := (pow_one _).symm
      _ < 2 ^ F.emax := pow_lt_pow_right₀ (by norm_num) F.one_lt_emax

/-- **C168** In a box with finite corners whose extent, rounded, is finite, too, the centre is a finite point of the box, in every coordinate separately. Missing: boxes
whose extent overflows, for which it is false (`C168_overflow`). -/
theorem C168_center_partial (b : AABB (Ieee F) D) (i : Fin D) {u v : ℝ} (hu : (b.min i).val? = some u) (hv : (b.max i).val? = some v) (huv : u ≤ v)
    (hfit : F.rnd (v - u) < 2 ^ F.emax) : ∃ c, (b.center i).val? = some c ∧ u ≤ c ∧ c ≤ v := by
  have fits : ∀ {s : Bool} {r : ℝ}, |F.rnd r| < 2 ^ F.emax → (ofReal (F := F) s r).val? = some (F.rnd r) := by
    intro s r h
    rcases ofReal_cases (F := F) s r with ⟨q, h1, rfl⟩ | ⟨-, -, h1⟩
    · exact h1
    · exact absurd h h1
  obtain ⟨mu, lu⟩ := val_mem hu
  obtain ⟨mv, lv⟩ := val_mem hv
  -- the same box without overflow
  have hc := C102_center (F := F.toFloatFormat) (D := 1) ⟨fun _ => ⟨u, mu⟩, fun _ => ⟨v, mv⟩⟩ (fun _ => huv) 0
  have he : ((⟨fun _ => ⟨u, mu⟩, fun _ => ⟨v, mv⟩⟩ : AABB (Fl F.toFloatFormat) 1).center 0).1 = F.rnd (u + F.rnd (F.rnd (v - u) / (2 : Fl F.toFloatFormat).1)) := rfl
  rw [F.two_exact] at he
  rw [Fl.le_iff, Fl.le_iff, he] at hc
  obtain ⟨c1, c2⟩ := hc
  have hE0 : 0 ≤ F.rnd (v - u) := F.rounds.nonneg (by linarith)
  have hH0 : 0 ≤ F.rnd (F.rnd (v - u) / 2) := F.rounds.nonneg (by linarith)
  obtain ⟨s1, d1⟩ := sub_def hv hu
  have v1 : (b.max i - b.min i).val? = some (F.rnd (v - u)) := by rw [d1]; exact fits (by rwa [abs_of_nonneg hE0])
  obtain ⟨s2, d2⟩ := div_def v1 two_val (by norm_num)
  have v2 : ((b.max i - b.min i) / 2).val? = some (F.rnd (F.rnd (v - u) / 2)) := by
    rw [d2]
    refine fits ?_
    rw [abs_of_nonneg hH0]
    exact lt_of_le_of_lt (F.rounds.of_le (F.rounds.mem _) (by linarith)) hfit
  obtain ⟨s3, d3⟩ := add_def hu v2
  refine ⟨F.rnd (u + F.rnd (F.rnd (v - u) / 2)), ?_, c1, c2⟩
  show (b.min i + (b.max i - b.min i) / 2).val? = _
  rw [d3]
  refine fits (abs_lt.2 ⟨?_, ?_⟩)
  · have h : u ≤ F.rnd (u + F.rnd (F.rnd (v - u) / 2)) := c1
    linarith [(abs_lt.1 lu).1]
  · have h : F.rnd (u + F.rnd (F.rnd (v - u) / 2)) ≤ v := c2
    linarith [(abs_lt.1 lv).2]

/-- **C168** In all other boxes with finite corners that coordinate of the centre is infinite. -/
theorem C168_overflow (b : AABB (Ieee F) D) (i : Fin D) {u v : ℝ} (hu : (b.min i).val? = some u) (hv : (b.max i).val? = some v) (hbig : 2 ^ F.emax ≤ F.rnd (v - u)) : b.center i = inf false := by
  have hp : (0 : ℝ) < 2 ^ F.emax := by positivity
  obtain ⟨s1, d1⟩ := sub_def hv hu
  have v1 : b.max i - b.min i = inf false := by
    rw [d1]
    rcases ofReal_cases (F := F) s1 (v - u) with ⟨q, h1, h2⟩ | ⟨h1, -, -⟩
    · have := (val_mem h1).2
      rw [h2, abs_of_nonneg (by linarith)] at this
      linarith
    · rw [h1]
      congr 1
      exact @decide_eq_false _ (_) (by linarith)
  have v2 : (b.max i - b.min i) / 2 = inf false := by
    rw [v1]
    have h2 := two_val (F := F)
    generalize (2 : Ieee F) = t at h2 ⊢
    cases t with
    | nan => cases h2
    | inf _ => cases h2
    | negZero => simp only [val?, Option.some.injEq] at h2; norm_num at h2
    | fin x hx =>
      simp only [val?, Option.some.injEq] at h2
      show inf (false ^^ @decide (x.1 < 0) _) = _
      rw [h2, @decide_eq_false _ (_) (by norm_num)]
      rfl
  show b.min i + (b.max i - b.min i) / 2 = _
  rw [v2]
  generalize b.min i = a at hu ⊢
  cases a with
  | nan => cases hu
  | inf _ => cases hu
  | negZero => rfl
  | fin x hx => rfl

/-- **C168** (the restriction is needed) In every format and dimension there is a box with finite corners, symmetric about the origin, whose centre has only infinite
coordinates. (`float`: from -2 ^ 127 to 2 ^ 127, `double`: from -2 ^ 1023 to 2 ^ 1023.) -/
theorem C168_counterexample (F : IeeeFormat) (D : Nat) :
    ∃ b : AABB (Ieee F) D, (∀ i, (b.min i).val? = some (-(2 : ℝ) ^ (F.emax - 1)) ∧ (b.max i).val? = some ((2 : ℝ) ^ (F.emax - 1))) ∧
      ∀ i, b.center i = inf false := by
  have hF := F.one_lt_emax
  set c : Ieee F := pow2 F (F.emax - 1) (by omega) with hc
  have h1 : c.val? = some ((2 : ℝ) ^ (F.emax - 1)) := rfl
  have h2 : (-c).val? = some (-(2 : ℝ) ^ (F.emax - 1)) := val_neg h1
  refine ⟨⟨fun _ => -c, fun _ => c⟩, fun i => ⟨h2, h1⟩, fun i => C168_overflow _ i h2 h1 ?_⟩
  have e : (2 : ℝ) ^ (F.emax - 1) - -2 ^ (F.emax - 1) = 2 ^ F.emax := by
    rw [sub_neg_eq_add, ← mul_two, ← pow_succ]; congr 1; omega
  rw [e, F.rounds.exact (pow_mem _ _)]

end

section Examples
/-- The box from (-3, 0, 1) to (4, 0, 8) in double precision. -/
example (i : Fin 3) : ∃ c, ((⟨q64 (-3) 0 1, q64 4 0 8⟩ : AABB (Ieee double64) 3).center i).val? = some c := by
  have h : ∀ (u v : ℤ), |v - u| < 2 ^ 53 → double64.rnd ((v : ℝ) - u) < 2 ^ double64.emax := by
    intro u v hb
    have := double64.rounds.exact (fl64 (v - u) hb).2
    rw [fl64_val] at this
    push_cast at this
    rw [this]
    have h3 : ((v - u : ℤ) : ℝ) < ((2 ^ 53 : ℤ) : ℝ) := by exact_mod_cast lt_of_abs_lt hb
    push_cast at h3
    have h4 : (2 : ℝ) ^ 53 ≤ 2 ^ double64.emax := pow_le_pow_right₀ one_le_two (show 53 ≤ 1024 by norm_num)
    norm_num at h3 h4
    linarith
  fin_cases i
  · obtain ⟨c, hc, -, -⟩ := C168_center_partial (⟨q64 (-3) 0 1, q64 4 0 8⟩ : AABB (Ieee double64) 3) 0 (u := ((-3 : ℤ) : ℝ)) (v := ((4 : ℤ) : ℝ)) rfl rfl (by norm_num) (h _ _ (by norm_num))
    exact ⟨c, hc⟩
  · obtain ⟨c, hc, -, -⟩ := C168_center_partial (⟨q64 (-3) 0 1, q64 4 0 8⟩ : AABB (Ieee double64) 3) 1 (u := ((0 : ℤ) : ℝ)) (v := ((0 : ℤ) : ℝ)) rfl rfl (by norm_num) (h _ _ (by norm_num))
    exact ⟨c, hc⟩
  · obtain ⟨c, hc, -, -⟩ := C168_center_partial (⟨q64 (-3) 0 1, q64 4 0 8⟩ : AABB (Ieee double64) 3) 2 (u := ((1 : ℤ) : ℝ)) (v := ((8 : ℤ) : ℝ)) rfl rfl (by norm_num) (h _ _ (by norm_num))
    exact ⟨c, hc⟩

/-- The box between the lowest and the largest power of two in double precision. -/
example : ∃ b : AABB (Ieee double64) 3, (b.max 0).val? = some ((2 : ℝ) ^ 1023) ∧ b.center 0 = inf false := by
  obtain ⟨b, h1, h2⟩ := C168_counterexample double64 3
  exact ⟨b, (h1 0).2, h2 0⟩

/-- From -2 ^ 1023 to 2 ^ 1023 along one axis. -/
example : (⟨![-pow2 double64 1023 (by show 1023 < 1024; norm_num)], ![pow2 double64 1023 (by show 1023 < 1024; norm_num)]⟩ :
    AABB (Ieee double64) 1).center 0 = inf false := by
  have h : (pow2 double64 1023 (by show 1023 < 1024; norm_num)).val? = some ((2 : ℝ) ^ 1023) := pow2_val 1023 _
  refine C168_overflow (⟨![-pow2 double64 1023 _], ![pow2 double64 1023 _]⟩ : AABB (Ieee double64) 1) 0 (val_neg h) h ?_
  have e : (2 : ℝ) ^ 1023 - -2 ^ 1023 = 2 ^ 1024 := by rw [sub_neg_eq_add, ← mul_two, ← pow_succ]
  rw [e]
  exact (double64.rounds.exact (pow_mem double64.toFloatFormat 1024)).ge
end Examples
end Verif
