import Verif.Model.Setters
import Verif.Props.AABB
import Verif.Props.Solids

set_option linter.unusedSectionVars false

/-
C77: what setters preserve.
-/
namespace Verif
open Spec

section
variable {K : Type} [Field K] [LinearOrder K] [IsStrictOrderedRing K] {D : Nat}

/-- The radii and the centres given by a list of calls. -/
def Circle2Op.radii : List (Circle2Op K) → List K
  | [] => []
  | .setRadius r :: ops => r :: radii ops
  | .setOrigin _ :: ops => radii ops
def Circle2Op.origins : List (Circle2Op K) → List (Vec K 2)
  | [] => []
  | .setRadius _ :: ops => origins ops
  | .setOrigin o :: ops => o :: origins ops

theorem Circle2.fold_eq (dbg : Bool) : ∀ (ops : List (Circle2Op K)) (c : Circle2 K),
    ops.foldlM (Circle2.apply dbg) c =
      if dbg = true ∧ ∃ r ∈ Circle2Op.radii ops, r < 0 then .error .assertFailed
      else .ok ⟨(Circle2Op.origins ops).getLastD c.origin, (Circle2Op.radii ops).getLastD c.radius⟩ := by
  intro ops
  induction ops with
  | nil => intro c; simp [Circle2Op.radii, Circle2Op.origins]; rfl
  | cons op ops ih =>
    intro c
    rw [List.foldlM_cons]
    cases op with
    | setOrigin o =>
      show ops.foldlM (Circle2.apply dbg) _ = _
      rw [ih]
      simp only [Circle2Op.radii, Circle2Op.origins, List.getLastD_cons]
    | setRadius r =>
      show (Circle2.setRadius dbg c r >>= _) = _
      by_cases h : dbg = true ∧ r < 0
      · rw [if_pos ⟨h.1, r, by simp [Circle2Op.radii], h.2⟩]
        have : Circle2.setRadius dbg c r = .error .assertFailed := by
          unfold Circle2.setRadius geoAssert
          simp [h.1, h.2]; try rfl
        rw [this]; try rfl
      · have : Circle2.setRadius dbg c r = .ok { c with radius := r } := by
          unfold Circle2.setRadius geoAssert
          have : (dbg && !decide (0 ≤ r)) = false := by
            cases dbg with
            | false => rfl
            | true => simpa using h
          rw [this]; rfl
        rw [this]
        show ops.foldlM (Circle2.apply dbg) _ = _
        rw [ih]
        have hiff : (dbg = true ∧ ∃ r ∈ Circle2Op.radii ops, r < 0) ↔
            (dbg = true ∧ ∃ r' ∈ Circle2Op.radii (.setRadius r :: ops), r' < 0) := by
          simp only [Circle2Op.radii, List.mem_cons, exists_eq_or_imp]
          constructor
          · rintro ⟨h1, h2⟩; exact ⟨h1, .inr h2⟩
          · rintro ⟨h1, h2 | h2⟩
            · exact absurd ⟨h1, h2⟩ h
            · exact ⟨h1, h2⟩
        by_cases hc : dbg = true ∧ ∃ r ∈ Circle2Op.radii ops, r < 0
        · rw [if_pos hc, if_pos (hiff.1 hc)]
        · rw [if_neg hc, if_neg (mt hiff.2 hc)]
          simp only [Circle2Op.radii, Circle2Op.origins, List.getLastD_cons]

/-- **C77** (2D circles): a history of constructor and setter calls goes through exactly when no radius it gives is negative or
assertions are off; the circle then has the centre and the radius given last. -/
theorem C77_circle2 (dbg : Bool) (o : Vec K 2) (r : K) (ops : List (Circle2Op K)) :
    Circle2.history dbg o r ops = if dbg = true ∧ ∃ x ∈ r :: Circle2Op.radii ops, x < 0 then .error .assertFailed
      else .ok ⟨(Circle2Op.origins ops).getLastD o, (Circle2Op.radii ops).getLastD r⟩ := by
  have h := Circle2.fold_eq dbg (.setRadius r :: ops) ⟨o, r⟩
  rw [List.foldlM_cons] at h
  simp only [Circle2Op.radii, Circle2Op.origins, List.getLastD_cons] at h
  rw [← h]
  rfl

/-- **C77** In a debug build every 2D circle there is has a radius of at least zero. -/
theorem C77_circle2_radius {o : Vec K 2} {r : K} {ops : List (Circle2Op K)} {c : Circle2 K}
    (h : Circle2.history true o r ops = .ok c) : 0 ≤ c.radius := by
  rw [C77_circle2] at h
  split at h
  · cases h
  · rename_i hn
    cases h
    dsimp only
    have hall : ∀ x ∈ r :: Circle2Op.radii ops, 0 ≤ x := fun x hx => not_lt.1 fun hx' => hn ⟨rfl, x, hx, hx'⟩
    apply hall
    cases hr : Circle2Op.radii ops with
    | nil => simp
    | cons a l => rw [List.getLastD_eq_getLast?, List.getLast?_eq_some_getLast (List.cons_ne_nil a l)]
                  exact List.mem_cons_of_mem _ (List.getLast_mem _)
end

section
variable {K : Type} [Field K] [LinearOrder K] [IsStrictOrderedRing K] [Tol K] [LawfulTol K] {D : Nat}

theorem AABB.add_valid {b : AABB K D} (h : b.isValid = true) (lo hi : Vec K D) :
    AABB.isValid (⟨fun i => if isLess (lo i) (b.min i) then lo i else b.min i,
      fun i => if isGreater (hi i) (b.max i) then hi i else b.max i⟩ : AABB K D) = true := by
  have hb := (C13_valid_partial b).1 h
  have he := eps_pos (K := K)
  unfold AABB.isValid at *
  rw [forallFin_iff] at *
  intro i
  have hi' := h i
  simp only [isGreaterEq_eq, Bool.not_not, isGreater_eq] at *
  split_ifs with h1 h2 h2
  · exact isLess_true (by have := of_isLess h1; have := of_isLess h2; have := hb i; linarith)
  · exact isLess_true (by have := of_isLess h1; have := hb i; linarith)
  · exact isLess_true (by have := of_isLess h2; have := hb i; linarith)
  · exact hi'

/-- **C77**, boxes: growing a valid box keeps it valid. Missing: `set_min` and `set_max` check nothing (`C77_box_counterexample`). -/
theorem C77_box_partial {lo hi : Vec K D} {ops : List (AABBOp K D)}
    (hops : ∀ op ∈ ops, (∃ v, op = .add v) ∨ ∃ b, op = .addBox b) {b : AABB K D} (h : AABB.history true lo hi ops = .ok b) :
    b.isValid = true := by
  unfold AABB.history at h
  have hmk : AABB.isValid (⟨lo, hi⟩ : AABB K D) = true := by
    by_contra hc
    have e : AABB.mk? true lo hi = .error .assertFailed := by
      unfold AABB.mk? geoAssert
      rw [Bool.not_eq_true] at hc
      dsimp only
      rw [hc]; rfl
    rw [e] at h; cases h
  have : AABB.mk? true lo hi = .ok ⟨lo, hi⟩ := by
    unfold AABB.mk? geoAssert
    simp [hmk]
  rw [this] at h
  cases h
  clear this
  generalize hb : (⟨lo, hi⟩ : AABB K D) = b at *
  clear hb
  induction ops generalizing b with
  | nil => exact hmk
  | cons op ops ih =>
    rw [List.foldl_cons]
    apply ih (fun o ho => hops o (by simp [ho]))
    rcases hops op (by simp) with ⟨v, rfl⟩ | ⟨o, rfl⟩
    · exact AABB.add_valid hmk v v
    · exact AABB.add_valid hmk o.min o.max

/-- The corners given by a list of calls. -/
def AABBOp.mins : List (AABBOp K D) → List (Vec K D)
  | [] => []
  | .setMin v :: ops => v :: mins ops
  | _ :: ops => mins ops
def AABBOp.maxs : List (AABBOp K D) → List (Vec K D)
  | [] => []
  | .setMax v :: ops => v :: maxs ops
  | _ :: ops => maxs ops

/-- **C77**, boxes: after any calls of `set_min` and `set_max` each corner is the one given last for it, in every build, whether the
box is valid or not; only the constructor checks. -/
theorem C77_box_setters (dbg : Bool) (lo hi : Vec K D) (ops : List (AABBOp K D))
    (hops : ∀ op ∈ ops, (∃ v, op = .setMin v) ∨ ∃ v, op = .setMax v) :
    AABB.history dbg lo hi ops = if dbg = true ∧ AABB.isValid (⟨lo, hi⟩ : AABB K D) = false then .error .assertFailed
      else .ok ⟨(AABBOp.mins ops).getLastD lo, (AABBOp.maxs ops).getLastD hi⟩ := by
  have hfold : ∀ b : AABB K D, ops.foldl AABB.apply b = ⟨(AABBOp.mins ops).getLastD b.min, (AABBOp.maxs ops).getLastD b.max⟩ := by
    induction ops with
    | nil => intro b; rfl
    | cons op ops ih =>
      intro b
      rw [List.foldl_cons, ih fun o ho => hops o (by simp [ho])]
      rcases hops op (by simp) with ⟨v, rfl⟩ | ⟨v, rfl⟩ <;> simp only [AABB.apply, AABBOp.mins, AABBOp.maxs, List.getLastD_cons]
  unfold AABB.history AABB.mk? geoAssert
  dsimp only
  cases dbg <;> cases hv : AABB.isValid (⟨lo, hi⟩ : AABB K D)
  · show Except.ok _ = _; rw [hfold]; rfl
  · show Except.ok _ = _; rw [hfold]; rfl
  · rfl
  · show Except.ok _ = _; rw [hfold]; rfl

/-- **C77** is false for boxes: `set_min` makes any box inverted, also in a debug build. -/
theorem C77_box_counterexample (lo hi : Vec K D) (i : Fin D) (h : AABB.isValid (⟨lo, hi⟩ : AABB K D) = true) :
    ∃ b, AABB.history true lo hi [.setMin fun j => hi j + 1] = .ok b ∧ b.isValid = false ∧ b.max i < b.min i := by
  have : AABB.mk? true lo hi = .ok ⟨lo, hi⟩ := by
    unfold AABB.mk? geoAssert
    simp [h]
  refine ⟨_, by unfold AABB.history; rw [this]; rfl, ?_, ?_⟩
  · by_contra hc
    have := (C13_valid_partial _).1 (by simpa using hc) i
    dsimp only [List.foldl_cons, List.foldl_nil, AABB.apply] at this
    have := eps_pos (K := K)
    linarith
  · simp [AABB.apply]
end

section
variable [Tol ℝ] [LawfulTol ℝ] {D : Nat}

/-- **C77**, 3D circles: what goes in with a radius of at least zero and a unit normal stays so in a debug build. Missing: the
constructor checks nothing (`C77_circle3_counterexample`). -/
theorem C77_circle3_partial {o : Vec ℝ 3} {r : ℝ} {n : Vec ℝ 3} {ops : List (Circle3Op ℝ)} {c : Circle3 ℝ}
    (hr : 0 ≤ r) (hn : |Spec.norm n - 1| ≤ Tol.eps) (h : Circle3.history true o r n ops = .ok c) :
    0 ≤ c.radius ∧ |Spec.norm c.normal - 1| ≤ Tol.eps := by
  unfold Circle3.history at h
  have key : ∀ (ops : List (Circle3Op ℝ)) (c0 : Circle3 ℝ), 0 ≤ c0.radius → |Spec.norm c0.normal - 1| ≤ Tol.eps →
      ops.foldlM (Circle3.apply true) c0 = .ok c → 0 ≤ c.radius ∧ |Spec.norm c.normal - 1| ≤ Tol.eps := by
    intro ops
    induction ops with
    | nil =>
      intro c0 h1 h2 h
      obtain rfl : c0 = c := Except.ok.inj h
      exact ⟨h1, h2⟩
    | cons op ops ih =>
      intro c0 h1 h2 h
      rw [List.foldlM_cons] at h
      cases op with
      | setOrigin o => exact ih { c0 with origin := o } h1 h2 h
      | setRadius r =>
        by_cases hr : 0 ≤ r
        · have e : Circle3.apply true c0 (.setRadius r) = .ok { c0 with radius := r } := by
            unfold Circle3.apply Circle3.setRadius geoAssert
            simp [hr]
          rw [e] at h
          exact ih { c0 with radius := r } hr h2 h
        · have e : Circle3.apply true c0 (.setRadius r) = .error .assertFailed := by
            unfold Circle3.apply Circle3.setRadius geoAssert
            simp [hr]
          rw [e] at h
          exact nomatch (show (Except.error Fault.assertFailed : Res (Circle3 ℝ)) = .ok c from h)
      | setNormal n =>
        by_cases hn : isEq (length n) 1 = true
        · have e : Circle3.apply true c0 (.setNormal n) = .ok { c0 with normal := n } := by
            unfold Circle3.apply Circle3.setNormal geoAssert
            simp [hn]
          rw [e] at h
          refine ih { c0 with normal := n } h1 ?_ h
          rw [spec_norm_eq]
          rw [isEq_eq] at hn
          simp only [Bool.and_eq_true, Bool.not_eq_true'] at hn
          have a := of_not_isLess hn.1
          have b := of_not_isLess hn.2
          exact abs_le.2 ⟨by linarith, by linarith⟩
        · have e : Circle3.apply true c0 (.setNormal n) = .error .assertFailed := by
            unfold Circle3.apply Circle3.setNormal geoAssert
            simp [hn]
          rw [e] at h
          exact nomatch (show (Except.error Fault.assertFailed : Res (Circle3 ℝ)) = .ok c from h)
  exact key ops ⟨o, r, n⟩ hr hn h

/-- **C77** is false for 3D circles: the constructor accepts every radius and every normal, also in a debug build. -/
theorem C77_circle3_counterexample (o : Vec ℝ 3) (r : ℝ) (n : Vec ℝ 3) :
    ∃ c, Circle3.history true o r n [] = .ok c ∧ c.radius = r ∧ c.normal = n := ⟨_, rfl, rfl, rfl⟩

/-- **C77**, rays: moving the origin keeps the direction a unit vector. Missing: `set_direction` (`C77_ray_counterexample`). -/
theorem C77_ray_partial (dbg : Bool) {o d : Vec ℝ D} (hd : d ≠ 0) {ops : List (RayOp ℝ D)} (hops : ∀ op ∈ ops, ∃ v, op = .setOrigin v)
    {r : Ray ℝ D} (h : Ray.history dbg o d ops = .ok r) : Spec.norm r.direction = 1 := by
  unfold Ray.history at h
  rcases C67_ray dbg o hd with ⟨-, -, h'⟩ | ⟨-, r0, h', -, hu, -⟩
  · rw [h'] at h; cases h
  · rw [h'] at h
    cases h
    clear h'
    induction ops generalizing r0 with
    | nil => exact hu
    | cons op ops ih =>
      obtain ⟨v, rfl⟩ := hops op (by simp)
      rw [List.foldl_cons]
      exact ih (fun o ho => hops o (by simp [ho])) _ hu

/-- **C77** is false for rays: `set_direction` stores its argument as it is, although the constructor normalises. -/
theorem C77_ray_counterexample (dbg : Bool) (o v d : Vec ℝ D) (hv : Tol.eps < Spec.norm v) :
    ∃ r, Ray.history dbg o v [.setDirection d] = .ok r ∧ r.direction = d := by
  have h0 : v ≠ 0 := by
    rintro rfl
    have : (0 : ℝ) < Tol.eps := LawfulTol.eps_pos
    rw [spec_norm_eq] at hv
    simp [length, dot_eq_sum] at hv
    linarith [show HasSqrt.sqrt (0 : ℝ) = 0 from Real.sqrt_zero]
  rcases C67_ray dbg o h0 with ⟨-, h, -⟩ | ⟨-, r0, h', -⟩
  · exact absurd hv (not_lt.2 h)
  · exact ⟨_, by unfold Ray.history; rw [h']; rfl, rfl⟩
end

section Examples
attribute [local instance] ratTol ratTol_lawful realTol realTol_lawful

example : Circle2.history true (fun _ => (0 : ℚ)) 1 [.setRadius 3, .setOrigin fun _ => 2, .setRadius 5] =
    .ok ⟨fun _ => 2, 5⟩ := by
  rw [C77_circle2, if_neg]
  · rfl
  · simp [Circle2Op.radii]
example : Circle2.history true (fun _ => (0 : ℚ)) 1 [.setRadius (-1), .setRadius 5] = .error .assertFailed := by
  rw [C77_circle2, if_pos]
  simp [Circle2Op.radii]
example : (0 : ℚ) ≤ (⟨fun _ => 2, 5⟩ : Circle2 ℚ).radius :=
  C77_circle2_radius (o := fun _ => 0) (r := 1) (ops := [.setOrigin fun _ => 2, .setRadius 5]) (by
    rw [C77_circle2, if_neg]
    · rfl
    · simp [Circle2Op.radii])
example : AABB.isValid (([AABBOp.add fun _ => 7, .addBox ⟨fun _ => -3, fun _ => 2⟩].foldl AABB.apply
    (⟨fun _ => 0, fun _ => 1⟩ : AABB ℚ 2))) = true :=
  C77_box_partial (lo := fun _ => 0) (hi := fun _ => 1) (ops := [.add fun _ => 7, .addBox ⟨fun _ => -3, fun _ => 2⟩])
    (by intro op h; simp at h; rcases h with rfl | rfl <;> simp) (by
      unfold AABB.history AABB.mk?
      have : AABB.isValid (⟨fun _ => 0, fun _ => 1⟩ : AABB ℚ 2) = true := by decide +kernel
      dsimp only
      rw [this]; rfl)
example : AABB.history true (fun _ => (0 : ℚ)) (fun _ : Fin 2 => 1) [.setMax fun _ => 8, .setMin fun _ => 9, .setMax fun _ => -2] =
    .ok ⟨fun _ => 9, fun _ => -2⟩ := by
  rw [C77_box_setters _ _ _ _ (by simp), if_neg]
  · rfl
  · decide +kernel
example : ∃ b, AABB.history true (fun _ => (0 : ℚ)) (fun _ => 1) [.setMin fun _ : Fin 2 => 1 + 1] = .ok b ∧ b.isValid = false ∧
    b.max 0 < b.min 0 := C77_box_counterexample _ _ 0 (by decide +kernel)
example : (0 : ℝ) ≤ (⟨fun _ => 1, 2, ![0, 0, 1]⟩ : Circle3 ℝ).radius :=
  (C77_circle3_partial (o := fun _ => 0) (r := 2) (n := ![0, 0, 1]) (ops := [.setOrigin fun _ => 1]) (by norm_num)
    (by
      have : Spec.norm (![0, 0, 1] : Vec ℝ 3) = 1 := by
        rw [Spec.norm]; simp [Fin.sum_univ_three]
      rw [this]; simpa using (eps_pos (K := ℝ)).le) rfl).1
example : Spec.norm (Ray.apply ⟨fun _ => 0, normalize fun _ => 1⟩ (.setOrigin fun _ => 4) : Ray ℝ 2).direction = 1 :=
  C77_ray_partial false (o := fun _ => 0) (d := fun _ => 1) (fun h => one_ne_zero (congrFun h 0))
    (ops := [.setOrigin fun _ => 4]) (by simp) rfl
example : ∃ r, Ray.history true (fun _ : Fin 2 => (0 : ℝ)) (fun _ => 1) [.setDirection fun _ => 7] = .ok r ∧ r.direction = fun _ => 7 := by
  apply C77_ray_counterexample
  have : Spec.norm (fun _ : Fin 2 => (1 : ℝ)) = Real.sqrt 2 := by
    rw [Spec.norm]; simp
  rw [this]
  show (1 / 1000 : ℝ) < _
  exact Real.lt_sqrt_of_sq_lt (by norm_num)
end Examples
end Verif
