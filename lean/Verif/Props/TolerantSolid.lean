import Verif.Props.TolerantTree
import Verif.Props.Moved
import Verif.Props.FloatSphere
import Verif.Proofs.FloatSolid
import Verif.Props.CuboidMesh

set_option linter.unusedSectionVars false

/-
Property C145: the solids built with comparisons of points and matrices that have a tolerance.
-/
namespace Verif
open Spec Matrix Real

/-! ### Two comparisons that agree on the points -/
section
variable {V : Type}

theorem createOrFindVertex_congr (b e : BEq V) (S : V → Prop) (h : ∀ p q, S p → S q → b.beq p q = e.beq p q) (dbg : Bool) (M : Nat)
    (m : HalfedgeMesh V) (p : V) (hm : ∀ q ∈ m.points, S q) (hp : S p) :
    @createOrFindVertex V b dbg M m p = @createOrFindVertex V e dbg M m p ∧
    ∀ r, @createOrFindVertex V b dbg M m p = .ok r → ∀ q ∈ r.1.points, S q := by
  have h1 : @pointsContains V b M m.points p = @pointsContains V e M m.points p := by
    unfold pointsContains
    have : m.points.findIdx? (fun q => b.beq q p) = m.points.findIdx? (fun q => e.beq q p) := by
      have hall : ∀ l : List V, (∀ q ∈ l, S q) → l.findIdx? (fun q => b.beq q p) = l.findIdx? (fun q => e.beq q p) := by
        intro l
        induction l with
        | nil => intro _; rfl
        | cons a l ih =>
          intro hl
          rw [List.findIdx?_cons, List.findIdx?_cons, h a p (hl a (by simp)) hp, ih fun q hq => hl q (by simp [hq])]
      exact hall _ hm
    change (match m.points.findIdx? (fun q => b.beq q p) with | some i => _ | none => _) = _
    rw [this]
    rfl
  refine ⟨by unfold createOrFindVertex; rw [h1], ?_⟩
  intro r hr
  unfold createOrFindVertex at hr
  obtain ⟨found, _, hr⟩ := bind_ok hr
  cases found with
  | some i =>
    dsimp only at hr
    obtain ⟨_, _, hr⟩ := bind_ok hr
    cases hr
    exact hm
  | none =>
    dsimp only at hr
    obtain ⟨_, _, hr⟩ := bind_ok hr
    cases hr
    intro q hq
    rcases List.mem_append.1 hq with hq | hq
    · exact hm q hq
    · rw [List.mem_singleton] at hq; subst hq; exact hp

theorem addCorner_points (dbg : Bool) (M : Nat) (s : HalfedgeMesh V × Nat) (first : Bool) (v : Nat) (r : HalfedgeMesh V × Nat)
    (h : addCorner dbg M s first v = .ok r) : r.1.points = s.1.points := by
  unfold addCorner at h
  repeat (obtain ⟨_, _, h⟩ := bind_ok h)
  cases h
  rfl

theorem addTriangle_congr (b e : BEq V) (S : V → Prop) (h : ∀ p q, S p → S q → b.beq p q = e.beq p q) (dbg : Bool) (M : Nat)
    (m : HalfedgeMesh V) (t : V × V × V) (hm : ∀ q ∈ m.points, S q) (h0 : S t.1) (h1 : S t.2.1) (h2 : S t.2.2) :
    @addTriangle V b dbg M m t = @addTriangle V e dbg M m t ∧
    ∀ r, @addTriangle V b dbg M m t = .ok r → ∀ q ∈ r.points, S q := by
  unfold addTriangle
  obtain ⟨e0, i0⟩ := createOrFindVertex_congr b e S h dbg M m t.1 hm h0
  rw [← e0]
  cases r0 : @createOrFindVertex V b dbg M m t.1 with
  | error _ => exact ⟨rfl, by rintro r ⟨⟩⟩
  | ok s0 =>
    simp only [ok_bind]
    obtain ⟨e1, i1⟩ := createOrFindVertex_congr b e S h dbg M s0.1 t.2.1 (i0 _ r0) h1
    rw [← e1]
    cases r1 : @createOrFindVertex V b dbg M s0.1 t.2.1 with
    | error _ => exact ⟨rfl, by rintro r ⟨⟩⟩
    | ok s1 =>
      simp only [ok_bind]
      obtain ⟨e2, i2⟩ := createOrFindVertex_congr b e S h dbg M s1.1 t.2.2 (i1 _ r1) h2
      rw [← e2]
      cases r2 : @createOrFindVertex V b dbg M s1.1 t.2.2 with
      | error _ => exact ⟨rfl, by rintro r ⟨⟩⟩
      | ok s2 =>
        simp only [ok_bind]
        refine ⟨by trivial, ?_⟩
        intro r hr
        obtain ⟨_, _, hr⟩ := bind_ok hr
        obtain ⟨c0, hc0, hr⟩ := bind_ok hr
        obtain ⟨c1, hc1, hr⟩ := bind_ok hr
        obtain ⟨c2, hc2, hr⟩ := bind_ok hr
        obtain ⟨_, _, hr⟩ := bind_ok hr
        obtain ⟨_, _, hr⟩ := bind_ok hr
        obtain ⟨hes, _, hr⟩ := bind_ok hr
        cases hr
        show ∀ q ∈ c2.1.points, S q
        rw [addCorner_points _ _ _ _ _ _ hc2, addCorner_points _ _ _ _ _ _ hc1, addCorner_points _ _ _ _ _ _ hc0]
        exact i2 s2 r2

theorem foldlM_inv {α σ : Type} (f : σ → α → Res σ) (I : σ → Prop) (l : List α) (h : ∀ s a s', I s → f s a = .ok s' → I s') (s s' : σ)
    (hs : I s) (hf : l.foldlM f s = .ok s') : I s' := by
  induction l generalizing s with
  | nil => cases hf; exact hs
  | cons a l ih =>
    rw [List.foldlM_cons] at hf
    obtain ⟨s1, h1, h2⟩ := bind_ok hf
    exact ih s1 (h s a s1 hs h1) h2
end

section
variable {T : Type} [Zero T] [One T] [Add T] [Sub T] [Mul T] [Neg T] [HasSqrt T] [LT T] [DecidableLT T]

/-- `buildTriangleHalfedgeMesh` with given comparisons of matrices and points. -/
abbrev buildBufferWith (bh : BEq (HMat T)) (b : BEq (Vec T 3)) (dbg : Bool) (M w : Nat) (trafo : HMat T) (points : List (Vec T 3))
    (idx : List Nat) : Res (HalfedgeMesh (Vec T 3)) := @buildTriangleHalfedgeMesh T _ _ _ _ _ _ _ _ _ bh b dbg M w trafo points idx

theorem roundTriangle_congr (bh eh : BEq (HMat T)) (trafo trafo' : HMat T) (points : List (Vec T 3)) (idx : List Nat) (k : Nat)
    (h : ∀ p ∈ points, @placeOf T _ _ _ _ bh trafo p = @placeOf T _ _ _ _ eh trafo' p) :
    @roundTriangle T _ _ _ _ bh trafo points idx k = @roundTriangle T _ _ _ _ eh trafo' points idx k := by
  have hb : ∀ i, @builderPoint T _ _ _ _ bh trafo points i = @builderPoint T _ _ _ _ eh trafo' points i := by
    intro i
    rw [@builderPoint_place T _ _ _ _ bh, @builderPoint_place T _ _ _ _ eh]
    cases hp : vecGet points i with
    | error _ => rfl
    | ok p => exact congrArg Except.ok (h p (vecGet_mem hp))
  unfold roundTriangle
  simp only [hb]

theorem roundTriangle_mem (bh : BEq (HMat T)) (trafo : HMat T) (points : List (Vec T 3)) (idx : List Nat) (k : Nat)
    (t : Vec T 3 × Vec T 3 × Vec T 3) (ht : @roundTriangle T _ _ _ _ bh trafo points idx k = .ok t) :
    (∃ p ∈ points, t.1 = @placeOf T _ _ _ _ bh trafo p) ∧ (∃ p ∈ points, t.2.1 = @placeOf T _ _ _ _ bh trafo p) ∧
      ∃ p ∈ points, t.2.2 = @placeOf T _ _ _ _ bh trafo p := by
  have hb : ∀ i q, @builderPoint T _ _ _ _ bh trafo points i = .ok q → ∃ p ∈ points, q = @placeOf T _ _ _ _ bh trafo p := by
    intro i q hq
    rw [@builderPoint_place T _ _ _ _ bh] at hq
    cases hp : vecGet points i with
    | error _ => rw [hp] at hq; cases hq
    | ok p => rw [hp] at hq; cases hq; exact ⟨p, vecGet_mem hp, rfl⟩
  unfold roundTriangle at ht
  obtain ⟨_, _, ht⟩ := bind_ok ht
  obtain ⟨p0, h0, ht⟩ := bind_ok ht
  obtain ⟨_, _, ht⟩ := bind_ok ht
  obtain ⟨p1, h1, ht⟩ := bind_ok ht
  obtain ⟨_, _, ht⟩ := bind_ok ht
  obtain ⟨p2, h2, ht⟩ := bind_ok ht
  cases ht
  exact ⟨hb _ _ h0, hb _ _ h1, hb _ _ h2⟩

/-- Buffers whose placed points are the same, compared in two ways that agree on them. -/
theorem buildBuffer_congr (bh eh : BEq (HMat T)) (b e : BEq (Vec T 3)) (dbg : Bool) (M w : Nat) (trafo trafo' : HMat T)
    (points : List (Vec T 3)) (idx : List Nat)
    (hpl : ∀ p ∈ points, @placeOf T _ _ _ _ bh trafo p = @placeOf T _ _ _ _ eh trafo' p)
    (h : ∀ p ∈ points, ∀ q ∈ points, b.beq (@placeOf T _ _ _ _ bh trafo p) (@placeOf T _ _ _ _ bh trafo q) =
      e.beq (@placeOf T _ _ _ _ bh trafo p) (@placeOf T _ _ _ _ bh trafo q)) :
    buildBufferWith bh b dbg M w trafo points idx = buildBufferWith eh e dbg M w trafo' points idx := by
  unfold buildBufferWith buildTriangleHalfedgeMesh
  let S : Vec T 3 → Prop := fun q => ∃ p ∈ points, q = @placeOf T _ _ _ _ bh trafo p
  have hS : ∀ p q, S p → S q → b.beq p q = e.beq p q := by
    rintro p q ⟨p, hp, rfl⟩ ⟨q, hq, rfl⟩
    exact h p hp q hq
  have hround : ∀ m k, (∀ q ∈ m.points, S q) →
      @builderRound T _ _ _ _ bh b dbg M trafo points idx m k = @builderRound T _ _ _ _ eh e dbg M trafo' points idx m k ∧
      ∀ m', @builderRound T _ _ _ _ bh b dbg M trafo points idx m k = .ok m' → ∀ q ∈ m'.points, S q := by
    intro m k hm
    rw [@builderRound_eq T _ _ _ _ bh b, @builderRound_eq T _ _ _ _ eh e, ← roundTriangle_congr bh eh trafo trafo' points idx k hpl]
    cases ht : @roundTriangle T _ _ _ _ bh trafo points idx k with
    | error _ => exact ⟨rfl, by rintro m' ⟨⟩⟩
    | ok t =>
      rw [ok_bind, ok_bind]
      obtain ⟨h0, h1, h2⟩ := roundTriangle_mem bh trafo points idx k t ht
      exact addTriangle_congr b e S hS dbg M m t hm h0 h1 h2
  rw [← foldlM_congr_inv (@builderRound T _ _ _ _ bh b dbg M trafo points idx) (@builderRound T _ _ _ _ eh e dbg M trafo' points idx)
    (fun m => ∀ q ∈ m.points, S q) _ (fun m k hm => hround m k hm) HalfedgeMesh.empty (by simp [HalfedgeMesh.empty])]
  congr 1
  funext _
  congr 1
  funext _
  cases hm : List.foldlM (@builderRound T _ _ _ _ bh b dbg M trafo points idx) HalfedgeMesh.empty (List.range (idx.length / 3)) with
  | error _ => rfl
  | ok m =>
    rw [ok_bind, ok_bind]
    have hI := foldlM_inv _ (fun m => ∀ q ∈ m.points, S q) _ (fun m k m' hm h => (hround m k hm).2 m' h) _ m
      (by simp [HalfedgeMesh.empty]) hm
    exact setOpposite_congr b e dbg w m fun p hp q hq => hS p q (hI p hp) (hI q hq)
end

/-! ### Buffers -/

theorem near_agrees {eps : ℝ} (h0 : 0 ≤ eps) (e : BEq (Vec ℝ 3)) (he : ∀ p q, e.beq p q = true ↔ p = q) {p q : Vec ℝ 3}
    (h : p ≠ q → ∃ i, eps < |p i - q i|) : (nearBEq eps).beq p q = e.beq p q := by
  by_cases hpq : p = q
  · subst hpq
    rw [nearBEq_refl h0, (he p p).2 rfl]
  · obtain ⟨i, hi⟩ := h hpq
    rw [Bool.eq_iff_iff, nearBEq_iff, he]
    exact ⟨fun hn => absurd (hn i) (not_le.2 hi), fun h => absurd h hpq⟩

theorem coord_gt_of_dist {eps : ℝ} (h0 : 0 ≤ eps) {p q : Vec ℝ 3} (h : Real.sqrt 3 * eps < Spec.dist p q) : ∃ i, eps < |p i - q i| := by
  by_contra hc
  push Not at hc
  have := dist_le_of_coord h0 hc
  push_cast at this
  linarith

theorem lawful_of_iff {V : Type u} (e : BEq V) (he : ∀ p q, e.beq p q = true ↔ p = q) : @LawfulBEq V e :=
  @LawfulBEq.mk _ e (@ReflBEq.mk _ e fun {a} => (he a a).2 rfl) fun {a b} hab => (he a b).1 hab

theorem near_identity {delta : ℝ} {trafo : HMat ℝ} (h : ∀ i j, |trafo i j - hmatIdentity i j| ≤ delta) (p : Vec ℝ 3) (i : Fin 3) :
    |transformVec p trafo i - p i| ≤ delta * (|p 0| + |p 1| + |p 2| + 1) := by
  have e : transformVec p trafo i - p i = (trafo i.castSucc 0 - hmatIdentity i.castSucc 0) * p 0
      + (trafo i.castSucc 1 - hmatIdentity i.castSucc 1) * p 1 + (trafo i.castSucc 2 - hmatIdentity i.castSucc 2) * p 2
      + (trafo i.castSucc 3 - hmatIdentity i.castSucc 3) := by
    rw [transformVec_apply]
    conv_lhs => rw [← transformVec_identity p]
    simp only [transformVec_identity]
    have := congrFun (transformVec_identity p) i
    rw [transformVec_apply] at this
    linarith
  rw [e]
  have k : ∀ j : Fin 4, ∀ x : ℝ, |(trafo i.castSucc j - hmatIdentity i.castSucc j) * x| ≤ delta * |x| := by
    intro j x
    rw [abs_mul]
    exact mul_le_mul_of_nonneg_right (h _ _) (abs_nonneg _)
  have a1 := abs_add_le ((trafo i.castSucc 0 - hmatIdentity i.castSucc 0) * p 0 + (trafo i.castSucc 1 - hmatIdentity i.castSucc 1) * p 1
    + (trafo i.castSucc 2 - hmatIdentity i.castSucc 2) * p 2) (trafo i.castSucc 3 - hmatIdentity i.castSucc 3)
  have a2 := abs_add_le ((trafo i.castSucc 0 - hmatIdentity i.castSucc 0) * p 0 + (trafo i.castSucc 1 - hmatIdentity i.castSucc 1) * p 1)
    ((trafo i.castSucc 2 - hmatIdentity i.castSucc 2) * p 2)
  have a3 := abs_add_le ((trafo i.castSucc 0 - hmatIdentity i.castSucc 0) * p 0) ((trafo i.castSucc 1 - hmatIdentity i.castSucc 1) * p 1)
  linarith [k 0 (p 0), k 1 (p 1), k 2 (p 2), h i.castSucc 3]

/-- **C145.**  A buffer of points that is placed by a rigid motion, where different points are more than `√3 eps` apart.  Points are compared
up to `eps` in every coordinate and matrices in some way that takes only matrices within `delta` for the identity.  The mesh has the same
vertices, half-edges, facets and links as with exact comparisons; its points are the same too, except that a placement that compares equal to
the identity is left out (`f` puts it back; it moves no point by more than `delta` times one plus the sum of its coordinates). -/
theorem C145_buffer (eps delta : ℝ) (h0 : 0 ≤ eps) (hd0 : 0 ≤ delta) (bh eh : BEq (HMat ℝ)) (e : BEq (Vec ℝ 3))
    (hbh : ∀ A, bh.beq A hmatIdentity = true → ∀ i j, |A i j - hmatIdentity i j| ≤ delta)
    (heh : ∀ A B, eh.beq A B = true ↔ A = B) (he : ∀ p q, e.beq p q = true ↔ p = q) (dbg : Bool) (M w : Nat) (trafo : HMat ℝ)
    (points : List (Vec ℝ 3)) (idx : List Nat) (hM : idx.length < M) {A : Matrix (Fin 3) (Fin 3) ℝ} {t : Vec ℝ 3}
    (ht : Describes trafo A t) (hA : Orthogonal A) (hsep : ∀ p ∈ points, ∀ q ∈ points, p ≠ q → Real.sqrt 3 * eps < Spec.dist p q) :
    ∃ f : Vec ℝ 3 → Vec ℝ 3,
      buildBufferWith eh e dbg M w trafo points idx =
        (buildBufferWith bh (nearBEq eps) dbg M w trafo points idx).map (fun m => { m with points := m.points.map f }) ∧
      (f = id ∨ bh.beq trafo hmatIdentity = true ∧ f = fun p => transformVec p trafo) ∧
      ∀ p i, |f p i - p i| ≤ delta * (|p 0| + |p 1| + |p 2| + 1) := by
  have lh := lawful_of_iff eh heh
  have lv := lawful_of_iff e he
  have hf : (fun p => transformVec p trafo) = affine A t := funext (transformVec_eq ht)
  have hpe : ∀ p, @placeOf ℝ _ _ _ _ eh trafo p = transformVec p trafo := fun p => @placeOf_eq ℝ _ eh lh trafo p
  have hpi : ∀ p, @placeOf ℝ _ _ _ _ eh hmatIdentity p = p := fun p => by rw [@placeOf_eq ℝ _ eh lh, transformVec_identity]
  cases hb : bh.beq trafo hmatIdentity with
  | false =>
    have hpb : ∀ p, @placeOf ℝ _ _ _ _ bh trafo p = transformVec p trafo := by
      intro p
      unfold placeOf
      rw [if_pos]
      change (!bh.beq trafo hmatIdentity) = true
      rw [hb]; rfl
    refine ⟨id, ?_, .inl rfl, fun p i => ?_⟩
    · rw [buildBuffer_congr bh eh (nearBEq eps) e dbg M w trafo trafo points idx (fun p _ => by rw [hpb, hpe])]
      · cases buildBufferWith eh e dbg M w trafo points idx with
        | error _ => rfl
        | ok m => simp [Except.map]
      · intro p hp q hq
        refine near_agrees h0 e he fun hne => ?_
        rw [hpb, hpb] at hne ⊢
        refine coord_gt_of_dist h0 ?_
        rw [transformVec_eq ht, transformVec_eq ht, hA.dist]
        exact hsep p hp q hq fun h => hne (by rw [h])
    · simp only [id, sub_self, abs_zero]; positivity
  | true =>
    have hpb : ∀ p, @placeOf ℝ _ _ _ _ bh trafo p = p := by
      intro p
      unfold placeOf
      rw [if_neg]
      change ¬ (!bh.beq trafo hmatIdentity) = true
      rw [hb]; simp
    refine ⟨fun p => transformVec p trafo, ?_, .inr ⟨rfl, rfl⟩, near_identity (hbh trafo hb)⟩
    rw [buildBuffer_congr bh eh (nearBEq eps) e dbg M w trafo hmatIdentity points idx (fun p _ => by rw [hpb, hpi])]
    · exact @C124_placement e lv eh lh dbg M w trafo points idx hM (by rw [hf]; exact hA.injective t)
    · intro p hp q hq
      refine near_agrees h0 e he fun hne => ?_
      rw [hpb, hpb] at hne ⊢
      exact coord_gt_of_dist h0 (hsep p hp q hq hne)

/-! ### Cones and cylinders -/
section
variable [Tol ℝ] [LawfulTol ℝ]

/-- `coneBuild` with given comparisons of matrices and points. -/
noncomputable abbrev coneBuildWith (bh : BEq (HMat ℝ)) (b : BEq (Vec ℝ 3)) (dbg : Bool) (M w : Nat) (rotAlign : Vec ℝ 4 → Vec ℝ 4 → HMat ℝ)
    (cone : Option (Cone ℝ)) (n : Nat) : Res (Option (HalfedgeMesh (Vec ℝ 3))) :=
  @coneBuild ℝ _ _ _ _ _ _ _ _ _ _ _ _ _ bh b _ dbg M w rotAlign cone n

theorem coneBuildWith_eq (bh : BEq (HMat ℝ)) (b : BEq (Vec ℝ 3)) (dbg : Bool) (M w : Nat) (rotAlign : Vec ℝ 4 → Vec ℝ 4 → HMat ℝ)
    (cone : Cone ℝ) (n : Nat) (hM : n + 1 < M) (hseg : cone.segment.source ≠ cone.segment.target)
    (hz : dbg = true → isZero cone.segment.length = false) :
    coneBuildWith bh b dbg M w rotAlign (some cone) n =
      (buildBufferWith bh b dbg M w
        (hmatSetTranslation (rotAlign (hvec4 0 0 1 1) (toHvec cone.segment.direction)) cone.segment.source)
        (conePoints cone.radius cone.segment.length n) (coneIdx n)).map some := by
  unfold coneBuildWith coneBuild
  rw [Option.isSome_some, geoAssert_true, ok_bind]
  dsimp only
  have h1 : (geoAssert dbg (!isZero cone.segment.length) : Res PUnit) = .ok ⟨⟩ := by
    cases dbg
    · rfl
    · rw [hz rfl]; rfl
  rw [h1, ok_bind, segment_dir_unit hseg, isEq_self_real, geoAssert_true, ok_bind, hvec4_eq_toHvec,
    calcConeTriangles_eq M _ _ n hM, ok_bind]
  exact bind_some _

theorem pairwise_dist {l : List (Vec ℝ 3)} {s u : ℝ} (hu : u < s) (h : l.Pairwise fun a b => s ≤ Spec.dist a b) :
    ∀ p ∈ l, ∀ q ∈ l, p ≠ q → u < Spec.dist p q := by
  intro p hp q hq hpq
  have : Std.Symm fun a b : Vec ℝ 3 => s ≤ Spec.dist a b := ⟨fun x y hxy => by rw [dist_comm']; exact hxy⟩
  exact lt_of_lt_of_le hu (List.Pairwise.forall h hp hq hpq)

theorem between {u r h : ℝ} {n : Nat} (h0 : 0 ≤ u) (hr : u * n < r) (hh : u < h) : ∃ s, u < s ∧ 0 ≤ s ∧ s * n ≤ r ∧ s ≤ h := by
  rcases Nat.eq_zero_or_pos n with rfl | hn
  · simp only [Nat.cast_zero, mul_zero] at hr
    exact ⟨h, hh, by linarith, by simpa using hr.le, le_rfl⟩
  · have hn' : (0 : ℝ) < n := by exact_mod_cast hn
    have h1 : u < r / n := by rw [lt_div_iff₀ hn']; exact hr
    refine ⟨min (r / n) h, lt_min h1 hh, le_min (by linarith) (by linarith), ?_, min_le_right _ _⟩
    calc min (r / n) h * n ≤ r / n * n := mul_le_mul_of_nonneg_right (min_le_left _ _) hn'.le
      _ = r := div_mul_cancel₀ _ hn'.ne'

theorem segment_length_dist (seg : Segment ℝ 3) : seg.length = Spec.dist seg.source seg.target := by
  unfold Segment.length
  rw [length_eq, vsub_eq, dist_comm']
  exact (spec_dist_eq _ _).symm

/-- From the buffer to the builder. -/
theorem of_buffer {V : Type} {x y : Res (HalfedgeMesh V)} {f : V → V} (h : x = y.map fun m => { m with points := m.points.map f })
    {m : HalfedgeMesh V} (hx : x.map some = .ok (some m)) :
    ∃ m', y.map some = .ok (some m') ∧ m = { m' with points := m'.points.map f } := by
  subst h
  cases y with
  | error _ => cases hx
  | ok m' => exact ⟨m', rfl, (Option.some.inj (Except.ok.inj hx)).symm⟩

/-- **C145.**  A cone whose radius is more than `√3 eps n` and whose height is more than `√3 eps`, built with a tolerance: the mesh is, handle
for handle, the one of exact comparisons, with the same points or (if its placement compares equal to the identity) points that are off by
less than the tolerance of matrices times one plus their size. -/
theorem C145_cone (eps delta : ℝ) (h0 : 0 ≤ eps) (hd0 : 0 ≤ delta) (bh eh : BEq (HMat ℝ)) (e : BEq (Vec ℝ 3))
    (hbh : ∀ A, bh.beq A hmatIdentity = true → ∀ i j, |A i j - hmatIdentity i j| ≤ delta)
    (heh : ∀ A B, eh.beq A B = true ↔ A = B) (he : ∀ p q, e.beq p q = true ↔ p = q) (dbg : Bool) (M w : Nat)
    (rotAlign : Vec ℝ 4 → Vec ℝ 4 → HMat ℝ) (cone : Cone ℝ) (n : Nat) (hM : 6 * n + 1 < M)
    (hz : dbg = true → isZero cone.segment.length = false)
    (hrot : RotatesZTo (rotAlign (hvec4 0 0 1 1) (toHvec cone.segment.direction)) cone.segment.direction)
    (hr : Real.sqrt 3 * eps * n < cone.radius) (hl : Real.sqrt 3 * eps < Spec.dist cone.segment.source cone.segment.target) :
    ∃ (m : HalfedgeMesh (Vec ℝ 3)) (f : Vec ℝ 3 → Vec ℝ 3), coneBuildWith bh (nearBEq eps) dbg M w rotAlign (some cone) n = .ok (some m) ∧
      coneBuildWith eh e dbg M w rotAlign (some cone) n = .ok (some { m with points := m.points.map f }) ∧
      ∀ p i, |f p i - p i| ≤ delta * (|p 0| + |p 1| + |p 2| + 1) := by
  have hseg : cone.segment.source ≠ cone.segment.target := by
    intro h
    rw [h, Spec.dist_self] at hl
    exact absurd hl (not_lt.2 (by positivity))
  obtain ⟨A, t, hd, ho, _, _⟩ := hrot
  obtain ⟨s, hus, hs0, hsn, hsh⟩ := between (by positivity : 0 ≤ Real.sqrt 3 * eps) hr
    (show Real.sqrt 3 * eps < cone.segment.length by rw [segment_length_dist]; exact hl)
  obtain ⟨f, hf, _, hb⟩ := C145_buffer eps delta h0 hd0 bh eh e hbh heh he dbg M w _ (conePoints cone.radius cone.segment.length n) (coneIdx n)
    (by rw [coneIdx_length]; omega) (describes_translation hd cone.segment.source) ho
    (pairwise_dist hus (conePoints_pairwise hs0 hsn hsh))
  obtain ⟨m, hm⟩ := @C56_in_range eh (lawful_of_iff eh heh) e (lawful_of_iff e he) _ _ dbg M w rotAlign cone n hM hseg hz
  have hm' : coneBuildWith eh e dbg M w rotAlign (some cone) n = .ok (some m) := hm
  rw [coneBuildWith_eq eh e dbg M w rotAlign cone n (by omega) hseg hz] at hm'
  obtain ⟨m', h1, h2⟩ := of_buffer hf hm'
  refine ⟨m', f, ?_, ?_, hb⟩
  · rw [coneBuildWith_eq bh _ dbg M w rotAlign cone n (by omega) hseg hz]; exact h1
  · rw [← h2]; exact hm

/-- `cylinderBuild` with given comparisons of matrices and points. -/
noncomputable abbrev cylinderBuildWith (bh : BEq (HMat ℝ)) (b : BEq (Vec ℝ 3)) (dbg : Bool) (M w : Nat)
    (rotAlign : Vec ℝ 4 → Vec ℝ 4 → HMat ℝ) (cyl : Option (Cylinder ℝ)) (n : Nat) : Res (Option (HalfedgeMesh (Vec ℝ 3))) :=
  @cylinderBuild ℝ _ _ _ _ _ _ _ _ _ _ _ _ _ bh b dbg M w rotAlign cyl n

theorem cylinderBuildWith_eq (bh : BEq (HMat ℝ)) (b : BEq (Vec ℝ 3)) (dbg : Bool) (M w : Nat) (rotAlign : Vec ℝ 4 → Vec ℝ 4 → HMat ℝ)
    (cyl : Cylinder ℝ) (n : Nat) (hn : 2 ≤ n) (hM : 2 * n + 2 < M) :
    cylinderBuildWith bh b dbg M w rotAlign (some cyl) n =
      (buildBufferWith bh b dbg M w
        (hmatSetTranslation (rotAlign (hvec4 0 0 1 1) (toHvec cyl.segment.direction)) cyl.segment.source)
        (cylPoints cyl.radius cyl.segment.length n) (cylIdx n)).map some := by
  unfold cylinderBuildWith cylinderBuild
  rw [Option.isSome_some, geoAssert_true, ok_bind]
  dsimp only
  rw [calcCylinderTriangles_eq dbg M _ _ n hn hM, ok_bind]
  exact bind_some _

/-- **C145.**  The same for cylinders of at least two sides. -/
theorem C145_cylinder (eps delta : ℝ) (h0 : 0 ≤ eps) (hd0 : 0 ≤ delta) (bh eh : BEq (HMat ℝ)) (e : BEq (Vec ℝ 3))
    (hbh : ∀ A, bh.beq A hmatIdentity = true → ∀ i j, |A i j - hmatIdentity i j| ≤ delta)
    (heh : ∀ A B, eh.beq A B = true ↔ A = B) (he : ∀ p q, e.beq p q = true ↔ p = q) (dbg : Bool) (M w : Nat)
    (rotAlign : Vec ℝ 4 → Vec ℝ 4 → HMat ℝ) (cyl : Cylinder ℝ) (n : Nat) (hn : 2 ≤ n) (hM : 12 * n < M)
    (hrot : RotatesZTo (rotAlign (hvec4 0 0 1 1) (toHvec cyl.segment.direction)) cyl.segment.direction)
    (hr : Real.sqrt 3 * eps * n < cyl.radius) (hl : Real.sqrt 3 * eps < Spec.dist cyl.segment.source cyl.segment.target) :
    ∃ (m : HalfedgeMesh (Vec ℝ 3)) (f : Vec ℝ 3 → Vec ℝ 3),
      cylinderBuildWith bh (nearBEq eps) dbg M w rotAlign (some cyl) n = .ok (some m) ∧
      cylinderBuildWith eh e dbg M w rotAlign (some cyl) n = .ok (some { m with points := m.points.map f }) ∧
      ∀ p i, |f p i - p i| ≤ delta * (|p 0| + |p 1| + |p 2| + 1) := by
  obtain ⟨A, t, hd, ho, _, _⟩ := hrot
  obtain ⟨s, hus, hs0, hsn, hsh⟩ := between (by positivity : 0 ≤ Real.sqrt 3 * eps) hr
    (show Real.sqrt 3 * eps < cyl.segment.length by rw [segment_length_dist]; exact hl)
  obtain ⟨f, hf, _, hb⟩ := C145_buffer eps delta h0 hd0 bh eh e hbh heh he dbg M w _ (cylPoints cyl.radius cyl.segment.length n) (cylIdx n)
    (by rw [cylIdx_length]; omega) (describes_translation hd cyl.segment.source) ho
    (pairwise_dist hus (cylPoints_pairwise hs0 hsn hsh))
  obtain ⟨m, hm⟩ := @C57_in_range_partial eh (lawful_of_iff eh heh) e (lawful_of_iff e he) dbg M w rotAlign cyl n hn hM
  have hm' : cylinderBuildWith eh e dbg M w rotAlign (some cyl) n = .ok (some m) := hm
  rw [cylinderBuildWith_eq eh e dbg M w rotAlign cyl n hn (by omega)] at hm'
  obtain ⟨m', h1, h2⟩ := of_buffer hf hm'
  refine ⟨m', f, ?_, ?_, hb⟩
  · rw [cylinderBuildWith_eq bh _ dbg M w rotAlign cyl n hn (by omega)]; exact h1
  · rw [← h2]; exact hm
end

/-! ### Spheres -/

/-- The mesh that `SphereBuilder.build` returns, with given comparisons of matrices and points. -/
noncomputable abbrev sphereBuildWith (bh : BEq (HMat ℝ)) (b : BEq (Vec ℝ 3)) (dbg : Bool) (M w : Nat) (s : SphereBuilder ℝ) :
    Res (HalfedgeMesh (Vec ℝ 3)) :=
  (@SphereBuilder.build ℝ _ _ _ _ _ _ _ _ _ _ _ _ _ bh b dbg M w s).map Prod.fst

theorem calcSpherePoints_exact (e : BEq (Vec ℝ 3)) (he : ∀ p q, e.beq p q = true ↔ p = q) (s : Sphere ℝ) (p n : Nat) :
    @calcSpherePoints ℝ _ _ _ _ _ _ _ _ e s p n = (sphVerts p n).map fun v => sphPt s.radius p n v + s.origin := by
  classical
  exact @calcSpherePoints_eq instBEqOfDecidableEq inferInstance e (lawful_of_iff e he) s p n

/-- The centre that is used for the points of a sphere. -/
noncomputable def usedCentre (b : BEq (Vec ℝ 3)) (o : Vec ℝ 3) : Vec ℝ 3 := if b.beq o (vec3 0 0 0) then 0 else o

theorem calcSpherePoints_with (b : BEq (Vec ℝ 3)) (s : Sphere ℝ) (p n : Nat) :
    @calcSpherePoints ℝ _ _ _ _ _ _ _ _ b s p n = (sphVerts p n).map fun v => sphPt s.radius p n v + usedCentre b s.origin := by
  classical
  let e : BEq (Vec ℝ 3) := instBEqOfDecidableEq
  have he : ∀ p q, e.beq p q = true ↔ p = q := fun p q => beq_iff_eq
  have h0 : e.beq (0 : Vec ℝ 3) (vec3 0 0 0) = true := (he _ _).2 vec3_zero.symm
  have h2 := calcSpherePoints_exact e he ⟨0, s.radius⟩ p n
  unfold usedCentre
  unfold calcSpherePoints at h2 ⊢
  dsimp only at h2 ⊢
  rw [show @bne _ e (0 : Vec ℝ 3) (vec3 0 0 0) = false by unfold bne; rw [h0]; rfl] at h2
  rw [if_neg (by simp)] at h2
  rw [h2]
  cases hb : b.beq s.origin (vec3 0 0 0) with
  | true =>
    rw [show @bne _ b s.origin (vec3 0 0 0) = false by unfold bne; rw [hb]; rfl]
    rw [if_neg (by simp), if_pos rfl]
  | false =>
    rw [show @bne _ b s.origin (vec3 0 0 0) = true by unfold bne; rw [hb]; rfl]
    rw [if_pos rfl, if_neg (by simp), List.map_map]
    apply List.map_congr_left
    intro v _
    simp [vadd_eq]

theorem fst_of_pair {α β : Type} (x : Res α) (b : β) : (x >>= fun m => Except.ok (m, b)).map Prod.fst = x := by
  cases x <;> rfl

theorem sphereBuildWith_eq (bh : BEq (HMat ℝ)) (b : BEq (Vec ℝ 3)) (dbg : Bool) (M w : Nat)
    (s : SphereBuilder ℝ) (hp : 2 ≤ s.polarCount) (hn : 1 ≤ s.azimuthCount) (hM : (s.polarCount - 1) * s.azimuthCount + 2 < M) :
    sphereBuildWith bh b dbg M w s = buildBufferWith bh b dbg M w hmatIdentity
      ((sphVerts s.polarCount s.azimuthCount).map fun v =>
        sphPt s.theSphere.radius s.polarCount s.azimuthCount v + usedCentre b s.theSphere.origin)
      (sphIdx s.polarCount s.azimuthCount) := by
  unfold sphereBuildWith SphereBuilder.build
  dsimp only
  rw [show s.sphere.getD ⟨s.origin, s.radius⟩ = s.theSphere from rfl, calcSpherePoints_with, List.length_map, sphVerts_length,
    toIdx_of_lt hM, calcSphereTriangleIndices_eq hp hn hM]
  exact fst_of_pair _ _

theorem placeOf_identity (bh : BEq (HMat ℝ)) (p : Vec ℝ 3) : @placeOf ℝ _ _ _ _ bh hmatIdentity p = p := by
  unfold placeOf
  split
  · exact transformVec_identity p
  · rfl

theorem usedCentre_exact (e : BEq (Vec ℝ 3)) (he : ∀ p q, e.beq p q = true ↔ p = q) (o : Vec ℝ 3) : usedCentre e o = o := by
  unfold usedCentre
  split
  · next h => rw [(he _ _).1 h, vec3_zero]
  · rfl

/-- **C145.**  A sphere with `eps N² < 2 r`, where `N` bounds both counts, built with a tolerance: the mesh is, handle for handle, the one of
exact comparisons; all its points are off by the same `t`, which is zero unless the centre is within the tolerance of zero and is then the
centre (such a sphere is not moved to its centre). -/
theorem C145_sphere (eps : ℝ) (h0 : 0 ≤ eps) (bh eh : BEq (HMat ℝ)) (e : BEq (Vec ℝ 3)) (heh : ∀ A B, eh.beq A B = true ↔ A = B)
    (he : ∀ p q, e.beq p q = true ↔ p = q) (dbg : Bool) (M w : Nat) (s : SphereBuilder ℝ) (hp : 2 ≤ s.polarCount)
    (hn : 1 ≤ s.azimuthCount) (hM : 6 * s.azimuthCount * (s.polarCount - 1) < M) (hr : 0 < s.theSphere.radius) {N : ℝ}
    (hpN : (s.polarCount : ℝ) ≤ N) (hnN : (s.azimuthCount : ℝ) ≤ N) (hN : eps * N ^ 2 < 2 * s.theSphere.radius) :
    ∃ (m : HalfedgeMesh (Vec ℝ 3)) (t : Vec ℝ 3), sphereBuildWith bh (nearBEq eps) dbg M w s = .ok m ∧
      sphereBuildWith eh e dbg M w s = .ok { m with points := m.points.map (· + t) } ∧
      ((∀ i, |s.theSphere.origin i| ≤ eps) ∧ t = s.theSphere.origin ∨ (∃ i, eps < |s.theSphere.origin i|) ∧ t = 0) := by
  have lh := lawful_of_iff eh heh
  have lv := lawful_of_iff e he
  have hM' : (s.polarCount - 1) * s.azimuthCount + 2 < M := by
    have : 1 ≤ (s.polarCount - 1) * s.azimuthCount := Nat.mul_pos (by omega) hn
    nlinarith
  have hN2 : (2 : ℝ) ≤ N := le_trans (by exact_mod_cast hp) hpN
  obtain ⟨m, b', hm⟩ := @C58_in_range eh lh e lv dbg M w s hp hn hM
  have hm' : sphereBuildWith eh e dbg M w s = .ok m := by unfold sphereBuildWith; rw [hm]; rfl
  have h1 := sphereBuildWith_eq eh e dbg M w s hp hn hM'
  have h2 := sphereBuildWith_eq bh (nearBEq eps) dbg M w s hp hn hM'
  rw [usedCentre_exact e he] at h1
  -- the centre that is used
  obtain ⟨t, ht, hto⟩ : ∃ t, s.theSphere.origin = usedCentre (nearBEq eps) s.theSphere.origin + t ∧
      ((∀ i, |s.theSphere.origin i| ≤ eps) ∧ t = s.theSphere.origin ∨ (∃ i, eps < |s.theSphere.origin i|) ∧ t = 0) := by
    unfold usedCentre
    by_cases h : ∀ i, |s.theSphere.origin i| ≤ eps
    · rw [if_pos (nearBEq_iff.2 (by rw [vec3_zero]; simpa using h))]
      exact ⟨_, by rw [zero_add], .inl ⟨h, rfl⟩⟩
    · rw [if_neg (fun hb => h (by have := nearBEq_iff.1 hb; rw [vec3_zero] at this; simpa using this))]
      push Not at h
      exact ⟨0, by rw [add_zero], .inr ⟨h, rfl⟩⟩
  rw [buildBuffer_congr bh eh (nearBEq eps) e dbg M w hmatIdentity hmatIdentity _ _
    (fun p _ => by rw [placeOf_identity, placeOf_identity]) (by
      intro p hp' q hq'
      rw [placeOf_identity, placeOf_identity]
      refine near_agrees h0 e he fun hne => ?_
      obtain ⟨u, hu, rfl⟩ := List.mem_map.1 hp'
      obtain ⟨v, hv, rfl⟩ := List.mem_map.1 hq'
      obtain ⟨c, hc⟩ := sphPt_sep hr hpN hnN hp (sphVerts_ok hu) (sphVerts_ok hv) fun h => hne (by rw [h])
      refine ⟨c, lt_of_lt_of_le ?_ (hc.trans (le_of_eq ?_))⟩
      · rw [lt_div_iff₀ (by positivity)]; exact hN
      · rw [Pi.add_apply, Pi.add_apply, add_sub_add_right_eq_sub])] at h2
  have hmv := @build_moved e lv eh lh dbg M w hmatIdentity hmatIdentity
    ((sphVerts s.polarCount s.azimuthCount).map fun v =>
        sphPt s.theSphere.radius s.polarCount s.azimuthCount v + usedCentre (nearBEq eps) s.theSphere.origin)
    ((sphVerts s.polarCount s.azimuthCount).map fun v => sphPt s.theSphere.radius s.polarCount s.azimuthCount v + s.theSphere.origin)
    (sphIdx s.polarCount s.azimuthCount) (by rw [sphIdx_length hp hn]; exact hM) (f := (· + t)) (fun p q h => add_right_cancel h)
    (by rw [List.length_map, List.length_map]) (by
      intro i hi
      rw [transformVec_identity, transformVec_identity]
      rw [List.length_map] at hi
      obtain ⟨v, hv, _⟩ := getD_mem (sphVerts s.polarCount s.azimuthCount) .top hi
      simp only [List.getD, List.getElem?_map, hv, Option.map_some, Option.getD_some]
      rw [add_assoc, ← ht])
  have hmv' : sphereBuildWith eh e dbg M w s = (sphereBuildWith bh (nearBEq eps) dbg M w s).map (movedMesh (· + t)) := by
    rw [h1, h2]; exact hmv
  cases hx : sphereBuildWith bh (nearBEq eps) dbg M w s with
  | error err => rw [hx, hm'] at hmv'; cases hmv'
  | ok m' => exact ⟨m', t, rfl, by rw [hmv', hx]; rfl, hto⟩

/-! ### Cuboids -/

/-- `CuboidBuilder.build` with a given comparison of points. -/
noncomputable abbrev cuboidBuildWith (b : BEq (Vec ℝ 3)) (dbg : Bool) (M w : Nat) (c : CuboidBuilder ℝ) :
    Res (HalfedgeMesh (Vec ℝ 3) × CuboidBuilder ℝ) :=
  @CuboidBuilder.build ℝ _ _ _ _ _ _ _ _ _ _ b dbg M w c

theorem cuboidBuildWith_eq (b : BEq (Vec ℝ 3)) (hr : ∀ p, b.beq p p = true) (hs : ∀ p q, b.beq p q = b.beq q p) (dbg : Bool) (M w : Nat)
    (c : CuboidBuilder ℝ) (hM : 36 < M) :
    ∃ m, buildMeshWith b dbg M w (cuboidTriangles c.theCuboid) = .ok m ∧
      cuboidBuildWith b dbg M w c = if dbg = true ∧ m.points.length ≠ 8 then .error .assertFailed
        else .ok (m, { c with cube := some c.theCuboid }) := by
  classical
  let e : BEq (Vec ℝ 3) := instBEqOfDecidableEq
  have he : ∀ p q, e.beq p q = true ↔ p = q := fun p q => beq_iff_eq
  have hM' : 3 * (cuboidTriangles c.theCuboid).length < M := by rw [cuboidTriangles_length]; omega
  have h3 : 3 * (@snapTriangles _ b (cuboidTriangles c.theCuboid)).length < M := by rw [@snapTriangles_length _ b]; exact hM'
  have hsn := C143_mesh b e he hr hs dbg M w (cuboidTriangles c.theCuboid) hM'
  obtain ⟨m, hm, hb⟩ := C48_build_succeeds dbg M w (@snapTriangles _ b (cuboidTriangles c.theCuboid)) h3
  have hh : m.halfedges.length = 36 := by
    obtain ⟨o, rfl⟩ := hb.eq h3
    simp [meshOfO, weld_length, corners_length, @snapTriangles_length _ b, cuboidTriangles_length]
  have hv : m.vertices.length = m.points.length := by
    have := congrArg List.length (C43_vertices dbg M _ h3 m hb).2.2.1
    simpa using this
  have hm' : buildMeshWith b dbg M w (cuboidTriangles c.theCuboid) = .ok m := hsn.trans hm
  refine ⟨m, hm', ?_⟩
  unfold cuboidBuildWith CuboidBuilder.build
  dsimp only
  change (buildMeshWith b dbg M w (cuboidTriangles c.theCuboid) >>= _) = _
  rw [hm', ok_bind, hh, hv]
  cases dbg
  · rfl
  · by_cases h8 : m.points.length = 8
    · simp [h8, geoAssert]; rfl
    · simp [h8, geoAssert]; rfl

theorem cuboid_corner_mem (c : Cuboid ℝ) (v : Vec ℝ 3) :
    v ∈ corners (cuboidTriangles c) ↔ v ∈ edgeChoices.map (corner c.origin c.sides) := by
  rw [cuboidTriangles_eq, corners_map, List.mem_map, List.mem_map]
  constructor
  · rintro ⟨a, _, rfl⟩; exact ⟨a, C68_all_choices a, rfl⟩
  · rintro ⟨a, _, rfl⟩; exact ⟨a, cubeTris_corners a, rfl⟩

/-- **C145.**  With a tolerance, debug builds accept exactly the cuboids any two of whose eight corners differ by more than the tolerance in
some coordinate.  For these the result is the same as with exact comparisons, in release builds too. -/
theorem C145_cuboid (eps : ℝ) (h0 : 0 ≤ eps) (e : BEq (Vec ℝ 3)) (he : ∀ p q, e.beq p q = true ↔ p = q) (M w : Nat) (c : CuboidBuilder ℝ)
    (hM : 36 < M) :
    ((∃ r, cuboidBuildWith (nearBEq eps) true M w c = .ok r) ↔
      (edgeChoices.map (corner c.theCuboid.origin c.theCuboid.sides)).Pairwise fun p q => ∃ i, eps < |p i - q i|) ∧
    ((edgeChoices.map (corner c.theCuboid.origin c.theCuboid.sides)).Pairwise (fun p q => ∃ i, eps < |p i - q i|) →
      ∀ dbg, cuboidBuildWith (nearBEq eps) dbg M w c = cuboidBuildWith e dbg M w c) ∧
    ∃ r, cuboidBuildWith (nearBEq eps) false M w c = .ok r := by
  have lv := lawful_of_iff e he
  have hM' : 3 * (cuboidTriangles c.theCuboid).length < M := by rw [cuboidTriangles_length]; omega
  have hsame : (edgeChoices.map (corner c.theCuboid.origin c.theCuboid.sides)).Pairwise (fun p q => ∃ i, eps < |p i - q i|) →
      ∀ dbg, cuboidBuildWith (nearBEq eps) dbg M w c = cuboidBuildWith e dbg M w c := by
    intro hp dbg
    have h := C143_tolerance_same eps h0 e he dbg M w (cuboidTriangles c.theCuboid) hM' (by
      intro p hp' q hq' hpq
      have : Std.Symm fun p q : Vec ℝ 3 => ∃ i, eps < |p i - q i| := ⟨fun x y ⟨i, hi⟩ => ⟨i, by rw [abs_sub_comm]; exact hi⟩⟩
      exact List.Pairwise.forall hp ((cuboid_corner_mem _ _).1 hp') ((cuboid_corner_mem _ _).1 hq') hpq)
    unfold cuboidBuildWith CuboidBuilder.build
    dsimp only
    change (buildMeshWith _ dbg M w (cuboidTriangles c.theCuboid) >>= _) = (buildMeshWith _ dbg M w (cuboidTriangles c.theCuboid) >>= _)
    rw [h]
  refine ⟨⟨?_, ?_⟩, hsame, ?_⟩
  · rintro ⟨r, hr⟩
    obtain ⟨m, hm, hb⟩ := cuboidBuildWith_eq (nearBEq eps) (nearBEq_refl h0) nearBEq_symm true M w c hM
    have h8 : m.points.length = 8 := by
      by_contra hne
      rw [hb, if_pos ⟨rfl, hne⟩] at hr
      cases hr
    obtain ⟨p1, p2, p3, _⟩ := C143_points (nearBEq eps) (nearBEq_refl h0) nearBEq_symm true M w _ hM' m hm
    have hperm : m.points.Perm (edgeChoices.map (corner c.theCuboid.origin c.theCuboid.sides)) :=
      (List.subperm_of_subset p2 fun p hp => (cuboid_corner_mem _ _).1 (p1 p hp)).perm_of_length_le (by
        rw [h8]; simp [edgeChoices])
    have hs : Std.Symm fun p q : Vec ℝ 3 => ∃ i, eps < |p i - q i| := ⟨fun x y ⟨i, hi⟩ => ⟨i, by rw [abs_sub_comm]; exact hi⟩⟩
    have hpw : m.points.Pairwise fun p q => ∃ i, eps < |p i - q i| := by
      refine List.Pairwise.imp_of_mem ?_ p2
      intro p q hp hq hne
      by_contra hc
      push Not at hc
      exact hne (p3 p hp q hq (nearBEq_iff.2 hc))
    exact (hperm.pairwise_iff (fun {x y} h => hs.symm x y h)).1 hpw
  · intro hp
    obtain ⟨r, hr⟩ := (@C59_accepts e lv M w c hM).1.2 (List.Pairwise.imp (by
      rintro p q ⟨i, hi⟩ rfl
      rw [sub_self, abs_zero] at hi
      exact absurd hi (not_lt.2 h0)) hp)
    exact ⟨r, by rw [hsame hp]; exact hr⟩
  · obtain ⟨m, _, hb⟩ := cuboidBuildWith_eq (nearBEq eps) (nearBEq_refl h0) nearBEq_symm false M w c hM
    exact ⟨_, by rw [hb, if_neg (by simp)]⟩

/-- **C145.**  A box given by its diagonal is accepted exactly if it is thicker than the tolerance in every direction. -/
theorem C145_box (eps : ℝ) (h0 : 0 ≤ eps) (M w : Nat) (o d : Vec ℝ 3) (hM : 36 < M) :
    (∃ r, cuboidBuildWith (nearBEq eps) true M w { origin := o, diagonal := d } = .ok r) ↔ ∀ i, eps < |d i| := by
  classical
  let e : BEq (Vec ℝ 3) := instBEqOfDecidableEq
  rw [(C145_cuboid eps h0 e (fun p q => beq_iff_eq) M w { origin := o, diagonal := d } hM).1]
  have hth : CuboidBuilder.theCuboid { origin := o, diagonal := d } = Cuboid.ofDiagonal o d := rfl
  rw [hth]
  obtain ⟨ho, hs, _⟩ := C68_diagonal o d
  have hcor : ∀ a k, corner (Cuboid.ofDiagonal o d).origin (Cuboid.ofDiagonal o d).sides a k = o k + if a k then d k else 0 := by
    intro a k
    simp only [corner, ho, hs]
    congr 1
    simp [Finset.sum_ite_eq]
  have hk : ∀ a b : Fin 3 → Bool, (∃ i, eps < |corner (Cuboid.ofDiagonal o d).origin (Cuboid.ofDiagonal o d).sides a i
      - corner (Cuboid.ofDiagonal o d).origin (Cuboid.ofDiagonal o d).sides b i|) ↔ ∃ i, a i ≠ b i ∧ eps < |d i| := by
    intro a b
    refine exists_congr fun i => ?_
    rw [hcor, hcor, add_sub_add_left_eq_sub]
    cases a i <;> cases b i <;> simp [h0]
  rw [List.pairwise_map]
  simp only [hk]
  constructor
  · intro h i
    simp only [edgeChoices, List.pairwise_cons, List.mem_cons, List.not_mem_nil, or_false, forall_eq_or_imp, forall_eq] at h
    obtain ⟨⟨h1, h2, _, h4, _⟩, _⟩ := h
    fin_cases i
    · obtain ⟨j, hj, hd⟩ := h4; fin_cases j <;> simp_all
    · obtain ⟨j, hj, hd⟩ := h2; fin_cases j <;> simp_all
    · obtain ⟨j, hj, hd⟩ := h1; fin_cases j <;> simp_all
  · intro h
    have : edgeChoices.Pairwise fun a b => ∃ i, a i ≠ b i := by decide +kernel
    exact this.imp fun ⟨i, hi⟩ => ⟨i, hi, h i⟩

/-! ### Solids smaller than the tolerance -/

theorem snapFrom_single [BEq V] (p : V) (cs : List V) (h : ∀ c ∈ cs, (p == c) = true) : snapFrom [p] cs = List.replicate cs.length p := by
  induction cs with
  | nil => rfl
  | cons c cs ih =>
    rw [snapFrom]
    have : [p].find? (· == c) = some p := by simp [List.find?, h c (by simp)]
    rw [this]
    dsimp only
    rw [ih fun x hx => h x (by simp [hx])]
    rfl

theorem snapFrom_collapse [BEq V] (p : V) (cs : List V) (h : ∀ c ∈ cs, (p == c) = true) :
    snapFrom [] (p :: cs) = List.replicate (cs.length + 1) p := by
  rw [snapFrom]
  dsimp only [List.find?, List.nil_append]
  rw [snapFrom_single p cs h]
  rfl

/-- **C145.**  If all corners agree with the first one up to the tolerance, the build succeeds, in debug builds too, with a mesh of one
vertex, the first corner; this mesh is not valid. -/
theorem C145_collapse (eps : ℝ) (h0 : 0 ≤ eps) (dbg dbg' : Bool) (M w : Nat) (t : Vec ℝ 3 × Vec ℝ 3 × Vec ℝ 3)
    (ts : List (Vec ℝ 3 × Vec ℝ 3 × Vec ℝ 3)) (hM : 3 * (t :: ts).length < M) (h : ∀ c ∈ corners (t :: ts), ∀ i, |t.1 i - c i| ≤ eps) :
    ∃ m, buildMeshWith (nearBEq eps) dbg M w (t :: ts) = .ok m ∧ m.points = [t.1] ∧ m.isValid dbg' M ≠ .ok true := by
  classical
  let e : BEq (Vec ℝ 3) := instBEqOfDecidableEq
  have he : ∀ p q, e.beq p q = true ↔ p = q := fun p q => beq_iff_eq
  obtain ⟨m, hm, hv⟩ := C143_succeeds (nearBEq eps) (nearBEq_refl h0) nearBEq_symm dbg dbg' M w (t :: ts) hM
  have hsn : @snapFrom _ (nearBEq eps) [] (corners (t :: ts)) = List.replicate (3 * (t :: ts).length) t.1 := by
    rw [← corners_length]
    have hc : corners (t :: ts) = t.1 :: t.2.1 :: t.2.2 :: corners ts := rfl
    rw [hc] at h ⊢
    exact @snapFrom_collapse _ (nearBEq eps) t.1 _ fun c hc => nearBEq_iff.2 (h c (List.mem_cons_of_mem _ hc))
  have h3 : 3 * (@snapTriangles _ (nearBEq eps) (t :: ts)).length < M := by rw [@snapTriangles_length _ (nearBEq eps)]; exact hM
  have hcs : corners (@snapTriangles _ (nearBEq eps) (t :: ts)) = List.replicate (3 * (t :: ts).length) t.1 := by
    rw [@corners_snapTriangles _ (nearBEq eps), hsn]
  refine ⟨m, hm, ?_, ?_⟩
  · rw [C143_mesh (nearBEq eps) e he (nearBEq_refl h0) nearBEq_symm dbg M w (t :: ts) hM] at hm
    obtain ⟨p1, p2, _, p4⟩ := C143_points e (fun p => (he p p).2 rfl) (fun p q => by rw [Bool.eq_iff_iff, he, he]; exact eq_comm) dbg M w _ h3 m hm
    have hall : ∀ p ∈ m.points, p = t.1 := fun p hp => List.eq_of_mem_replicate (hcs ▸ p1 p hp)
    obtain ⟨g, p, _, _, hg, _⟩ := p4 0 (by rw [hcs]; simp)
    have hp := heVector_mem hg
    match hpts : m.points with
    | [] => rw [hpts] at hp; cases hp
    | [x] => rw [hall x (by rw [hpts]; simp)]
    | x :: y :: l =>
      rw [hpts] at p2
      have h1 := hall x (by rw [hpts]; simp)
      have h2 := hall y (by rw [hpts]; simp)
      rw [h1, h2] at p2
      simp at p2
  · rw [Ne, hv]
    push Not
    refine ⟨(t.1, t.1), ?_⟩
    unfold snapTriangles
    rw [show ((t :: ts).flatMap fun t => [t.1, t.2.1, t.2.2]) = corners (t :: ts) from rfl, hsn]
    rw [List.length_cons, show 3 * (ts.length + 1) = 3 * ts.length + 1 + 1 + 1 by omega]
    simp only [List.replicate_succ, triples, directedEdges, List.flatMap_cons]
    exact List.sublist_append_left _ _

section Examples
attribute [local instance] realTol realTol_lawful

/-- Matrices that agree up to `delta` in every entry. -/
@[instance_reducible] noncomputable def nearHBEq (delta : ℝ) : BEq (HMat ℝ) := ⟨fun A B => decide (∀ i j, |A i j - B i j| ≤ delta)⟩

theorem nearHBEq_identity {delta : ℝ} (A : HMat ℝ) (h : (nearHBEq delta).beq A hmatIdentity = true) (i j : Fin 4) :
    |A i j - hmatIdentity i j| ≤ delta := by
  unfold nearHBEq at h
  simp only [decide_eq_true_eq] at h
  exact h i j

theorem sqrt3_lt : Real.sqrt 3 < 2 := by
  rw [Real.sqrt_lt' (by norm_num)]; norm_num

/-- Two triangles that are shifted by less than the tolerance: the tolerant build leaves them where they are. -/
example (eh : BEq (HMat ℝ)) (e : BEq (Vec ℝ 3)) (heh : ∀ A B, eh.beq A B = true ↔ A = B) (he : ∀ p q, e.beq p q = true ↔ p = q) :
    ∃ f : Vec ℝ 3 → Vec ℝ 3,
      buildBufferWith eh e true 256 8 (translation ![1 / 1000, 0, 0]) [![0, 0, 0], ![1, 0, 0], ![0, 1, 0]] [0, 1, 2, 0, 2, 1] =
        (buildBufferWith (nearHBEq (1 / 100)) (nearBEq (1 / 100)) true 256 8 (translation ![1 / 1000, 0, 0])
          [![0, 0, 0], ![1, 0, 0], ![0, 1, 0]] [0, 1, 2, 0, 2, 1]).map (fun m => { m with points := m.points.map f }) ∧
      ∀ p i, |f p i - p i| ≤ 1 / 100 * (|p 0| + |p 1| + |p 2| + 1) := by
  have lv := lawful_of_iff e he
  have lh := lawful_of_iff eh heh
  obtain ⟨f, h1, _, h2⟩ := C145_buffer (1 / 100) (1 / 100) (by norm_num) (by norm_num) (nearHBEq (1 / 100)) eh e nearHBEq_identity heh he true
    256 8 (translation ![1 / 1000, 0, 0]) [![0, 0, 0], ![1, 0, 0], ![0, 1, 0]] [0, 1, 2, 0, 2, 1] (by decide) (describes_translation' _)
    (by simp [Orthogonal]) (by
      have h3 := sqrt3_lt
      have key : ∀ p q : Vec ℝ 3, (1 / 50) ^ 2 ≤ (p 0 - q 0) ^ 2 + (p 1 - q 1) ^ 2 + (p 2 - q 2) ^ 2 → Real.sqrt 3 * (1 / 100) < Spec.dist p q := by
        intro p q hpq
        refine lt_of_lt_of_le (b := 1 / 50) (by linarith) ?_
        unfold Spec.dist
        rw [Fin.sum_univ_three]
        exact Real.le_sqrt_of_sq_le hpq
      intro p hp q hq hne
      apply key
      simp only [List.mem_cons, List.not_mem_nil, or_false] at hp hq
      rcases hp with rfl | rfl | rfl <;> rcases hq with rfl | rfl | rfl <;> first | exact absurd rfl hne | (norm_num; nlinarith [sq_nonneg ((0 : ℝ) - 0)]))
  exact ⟨f, h1, h2⟩

theorem exSeg_dist : Spec.dist exSeg.source exSeg.target = 5 := by rw [← segment_length_dist, exSeg_length]

/-- A cone of radius 2 and height 5 with 20 sides. -/
example (eh : BEq (HMat ℝ)) (e : BEq (Vec ℝ 3)) (heh : ∀ A B, eh.beq A B = true ↔ A = B) (he : ∀ p q, e.beq p q = true ↔ p = q) :
    ∃ (m : HalfedgeMesh (Vec ℝ 3)) (f : Vec ℝ 3 → Vec ℝ 3),
      coneBuildWith (nearHBEq (1 / 100)) (nearBEq (1 / 100)) true 256 8 rotAlignZ (some ⟨exSeg, 2⟩) 20 = .ok (some m) ∧
      coneBuildWith eh e true 256 8 rotAlignZ (some ⟨exSeg, 2⟩) 20 = .ok (some { m with points := m.points.map f }) ∧
      ∀ p i, |f p i - p i| ≤ 1 / 100 * (|p 0| + |p 1| + |p 2| + 1) :=
  C145_cone (1 / 100) (1 / 100) (by norm_num) (by norm_num) _ eh e nearHBEq_identity heh he true 256 8 rotAlignZ ⟨exSeg, 2⟩ 20 (by decide)
    (fun _ => exSeg_nonzero) (exSeg_rot _) (by have := sqrt3_lt; push_cast; linarith)
    (by dsimp only; rw [exSeg_dist]; have := sqrt3_lt; linarith)

/-- A cylinder of radius 2 and height 5 with 20 sides. -/
example (eh : BEq (HMat ℝ)) (e : BEq (Vec ℝ 3)) (heh : ∀ A B, eh.beq A B = true ↔ A = B) (he : ∀ p q, e.beq p q = true ↔ p = q) :
    ∃ (m : HalfedgeMesh (Vec ℝ 3)) (f : Vec ℝ 3 → Vec ℝ 3),
      cylinderBuildWith (nearHBEq (1 / 100)) (nearBEq (1 / 100)) true 256 8 rotAlignZ (some ⟨exSeg, 2⟩) 20 = .ok (some m) ∧
      cylinderBuildWith eh e true 256 8 rotAlignZ (some ⟨exSeg, 2⟩) 20 = .ok (some { m with points := m.points.map f }) ∧
      ∀ p i, |f p i - p i| ≤ 1 / 100 * (|p 0| + |p 1| + |p 2| + 1) :=
  C145_cylinder (1 / 100) (1 / 100) (by norm_num) (by norm_num) _ eh e nearHBEq_identity heh he true 256 8 rotAlignZ ⟨exSeg, 2⟩ 20 (by decide)
    (by decide) (exSeg_rot _) (by have := sqrt3_lt; push_cast; linarith)
    (by dsimp only; rw [exSeg_dist]; have := sqrt3_lt; linarith)

/-- A sphere of radius 2 around (1, 2, 3) with the default counts is built as with exact comparisons. -/
example (bh eh : BEq (HMat ℝ)) (e : BEq (Vec ℝ 3)) (heh : ∀ A B, eh.beq A B = true ↔ A = B) (he : ∀ p q, e.beq p q = true ↔ p = q) :
    sphereBuildWith bh (nearBEq (1 / 1000)) true 65536 16 exSphere = sphereBuildWith eh e true 65536 16 exSphere := by
  obtain ⟨m, t, h1, h2, h3⟩ := C145_sphere (1 / 1000) (by norm_num) bh eh e heh he true 65536 16 exSphere (by decide) (by decide) (by decide)
    (by simp [exSphere, SphereBuilder.theSphere]) (N := 20) (by norm_num [exSphere]) (by norm_num [exSphere])
    (by norm_num [exSphere, SphereBuilder.theSphere])
  rcases h3 with ⟨h, _⟩ | ⟨_, rfl⟩
  · have := h 0
    simp [exSphere, SphereBuilder.theSphere] at this
    norm_num at this
  · rw [h1, h2]
    simp

/-- One around (1/2000, 0, 0) is built around zero. -/
example (bh eh : BEq (HMat ℝ)) (e : BEq (Vec ℝ 3)) (heh : ∀ A B, eh.beq A B = true ↔ A = B) (he : ∀ p q, e.beq p q = true ↔ p = q) :
    ∃ m, sphereBuildWith bh (nearBEq (1 / 1000)) true 65536 16 { origin := vec3 (1 / 2000) 0 0, radius := 2 } = .ok m ∧
      sphereBuildWith eh e true 65536 16 { origin := vec3 (1 / 2000) 0 0, radius := 2 } =
        .ok { m with points := m.points.map (· + vec3 (1 / 2000) 0 0) } := by
  obtain ⟨m, t, h1, h2, h3⟩ := C145_sphere (1 / 1000) (by norm_num) bh eh e heh he true 65536 16
    { origin := vec3 (1 / 2000) 0 0, radius := 2 } (by decide) (by decide) (by decide)
    (by simp [SphereBuilder.theSphere]) (N := 20) (by norm_num) (by norm_num) (by norm_num [SphereBuilder.theSphere])
  rcases h3 with ⟨_, rfl⟩ | ⟨⟨i, hi⟩, _⟩
  · exact ⟨m, h1, h2⟩
  · exfalso
    fin_cases i <;> simp [SphereBuilder.theSphere] at hi <;> norm_num [abs_of_pos] at hi

/-- A box that is thicker than the tolerance is accepted, a plate that is not is rejected. -/
example : (∃ r, cuboidBuildWith (nearBEq (1 / 1000)) true 256 8 exBox = .ok r) ∧
    ¬ ∃ r, cuboidBuildWith (nearBEq (1 / 1000)) true 256 8 { origin := vec3 1 2 3, diagonal := vec3 5 5 (1 / 2000) } = .ok r := by
  constructor
  · refine (C145_box (1 / 1000) (by norm_num) 256 8 (vec3 1 2 3) (vec3 2 (-1) 4) (by decide)).2 ?_
    intro i; fin_cases i <;> simp <;> norm_num
  · rw [C145_box (1 / 1000) (by norm_num) 256 8 _ _ (by decide)]
    intro h
    have := h 2
    simp at this
    norm_num [abs_of_pos] at this

/-- The accepted box is built as with exact comparisons. -/
example (e : BEq (Vec ℝ 3)) (he : ∀ p q, e.beq p q = true ↔ p = q) :
    cuboidBuildWith (nearBEq (1 / 1000)) false 256 8 exBox = cuboidBuildWith e false 256 8 exBox := by
  refine (C145_cuboid (1 / 1000) (by norm_num) e he 256 8 exBox (by decide)).2.1 ?_ false
  refine (C145_cuboid (1 / 1000) (by norm_num) e he 256 8 exBox (by decide)).1.1
    ((C145_box (1 / 1000) (by norm_num) 256 8 (vec3 1 2 3) (vec3 2 (-1) 4) (by decide)).2 ?_)
  intro i; fin_cases i <;> simp <;> norm_num

/-- Two triangles smaller than the tolerance. -/
example : ∃ m, buildMeshWith (nearBEq (1 / 100)) true 256 8
      [(![0, 0, 0], ![1 / 200, 0, 0], ![0, 1 / 200, 0]), (![0, 0, 0], ![0, 1 / 200, 0], ![1 / 200, 0, 0])] = .ok m ∧
    m.points = [![0, 0, 0]] ∧ m.isValid false 256 ≠ .ok true := by
  refine C145_collapse (1 / 100) (by norm_num) true false 256 8 _ _ (by simp) ?_
  intro c hc i
  simp only [corners, List.flatMap_cons, List.flatMap_nil, List.cons_append, List.nil_append, List.append_nil, List.mem_cons,
    List.not_mem_nil, or_false] at hc
  rcases hc with rfl | rfl | rfl | rfl | rfl | rfl <;> fin_cases i <;> norm_num [abs_of_pos]
end Examples
end Verif
