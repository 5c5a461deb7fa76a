import Verif.Props.FloatSkew
import Verif.Props.IeeeSphere

set_option linter.unusedSectionVars false

/-
C154: intersections of planes and rays, of planes and segments, and of lines in the plane and in space in IEEE arithmetic, with overflow.
-/
namespace Verif
open Spec
namespace Ieee
variable {F : IeeeFormat}

section
variable [Tol (Ieee F)]

/-- **C154** Plane and ray in IEEE arithmetic: C105 holds for coordinates up to `2 ^ k` and angles whose sine is at least `2 ^ (1 - j)`, `k + j + 7 < emax`. -/
theorem C154_plane_ray_partial (k j : ℕ) (hk : k + j + 7 < F.emax) (p : Plane (Ieee F)) (r : Ray (Ieee F) 3) (e : Ieee F)
    (hpo : ∀ i, AtMost k (p.origin i)) (hro : ∀ i, AtMost k (r.origin i)) (hpn : ∀ i, ∃ x, (p.normal i).val? = some x)
    (hrd : ∀ i, ∃ x, (r.direction i).val? = some x) (hp : 9 ≤ F.prec) (hmin : ∀ k, F.emin = some k → k < -2 * (F.prec : ℤ))
    (hn : |Spec.norm (reals p.normal) - 1| ≤ 1 / 32) (hd : |Spec.norm (reals r.direction) - 1| ≤ 1 / 32)
    {s ω τ W : ℝ} (hs0 : 0 < s) (hs : s * Spec.norm (reals r.direction) ≤ |∑ i, reals r.direction i * reals p.normal i|)
    (hj : 2 ≤ s * 2 ^ j) (hu : 64 * (2 : ℝ)⁻¹ ^ F.prec ≤ s) (hω0 : 0 ≤ ω) (hω : ∀ k, F.emin = some k → (2 : ℝ) ^ k * (1 / s + 3) ≤ ω)
    (hW : W = Spec.dist (reals p.origin) (reals r.origin))
    (hz : ∀ (a : Ieee F) x, a.val? = some x → 1 / 2 * s ≤ |x| → Tol.isZero a e = false)
    (hg : ∀ (a : Ieee F) x, a.val? = some x → τ < x → Tol.isGreater a 0 e = true)
    (hng : ∀ (a : Ieee F) x, a.val? = some x → x ≤ 0 → Tol.isGreater a 0 e = false) :
    ∃ t x, Spec.plane (reals p.origin) (reals p.normal) ∩ Spec.line (reals r.origin) (reals r.direction) = {x} ∧
      x = Spec.pointAt (reals r.origin) (reals r.direction) t ∧
      (∀ q, intersectPlaneRay p r e = some q →
        (∀ i, ∃ y, (q i).val? = some y) ∧
        (∀ i, |reals q i - x i| ≤ (2 : ℝ)⁻¹ ^ F.prec * |x i| + 26 * ((2 : ℝ)⁻¹ ^ F.prec / s * (W / s)) + 17 * ω) ∧
        ∃ δ, Spec.IsDistance {reals q} (Spec.plane (reals p.origin) (reals p.normal)) δ ∧
          δ ≤ (2 : ℝ)⁻¹ ^ F.prec * (2 * ∑ i, |x i| + 36 * (W / s)) + 20 * ω) ∧
      (τ + 23 * ((2 : ℝ)⁻¹ ^ F.prec / s * (W / s)) + 14 * ω < t → (intersectPlaneRay p r e).isSome) ∧
      (t ≤ -(23 * ((2 : ℝ)⁻¹ ^ F.prec / s * (W / s)) + 14 * ω) → intersectPlaneRay p r e = none) := by
  have hd' := near_direction hrd (by linarith [(abs_le.1 hd).2])
  have hn' := near_direction hpn (by linarith [(abs_le.1 hn).2])
  have npo : NearVec k p.origin (flOf p.origin) := fun i => (hpo i).near
  have nro : NearVec k r.origin (flOf r.origin) := fun i => (hro i).near
  have nn : NearVec 1 p.normal (flOf p.normal) := fun i => (hn' i).near
  have nd : NearVec 1 r.direction (flOf r.direction) := fun i => (hd' i).near
  rw [nn.reals] at hn hs ⊢
  rw [nd.reals] at hd hs ⊢
  rw [npo.reals, nro.reals] at hW ⊢
  have hu0 := F.unit_pos
  obtain ⟨n1, n2⟩ := abs_le.1 hn
  obtain ⟨d1, d2⟩ := abs_le.1 hd
  obtain ⟨h1, t, h2, h3, h4, h5⟩ := plane_hit (flOf p.origin) (flOf p.normal) (flOf r.origin) (flOf r.direction) (fun i => (flOf r.direction i).1)
    (fun i => by rw [sub_self, abs_zero]; positivity) hp (fun k hk => (hmin k hk).le) rfl (by linarith) (tiny_le_norm hmin (by linarith))
    (by linarith) (by linarith) hs0 hs hu rfl hω0
    (fun k hk => le_trans (mul_le_mul_of_nonneg_left (by linarith) (zpow_pos two_pos k).le) (hω k hk))
  rw [← hW] at h3 h4 h5
  have hlow : 1 / 2 * s ≤ |(dot (flOf r.direction) (flOf p.normal)).1| := by
    have := mul_le_mul_of_nonneg_left (show 31 / 32 ≤ Spec.norm (fun i => (flOf r.direction i).1) by linarith) hs0.le
    linarith
  have m1 := nd.dot nn (by omega)
  have m2 := (npo.vsub nro (by omega)).dot nn (by omega)
  have m3 := m2.div m1 (j := j) (by nlinarith [show (0 : ℝ) < 2 ^ j by positivity]) (by omega)
  have m4 := nd.vscale m3 (by omega)
  have m5 := ((nro.mono (by omega : k ≤ k + j + 6)).vadd (m4.mono (by omega)) (by omega))
  have hr : intersectPlaneRay p r e = if Tol.isGreater (dot (vsub p.origin r.origin) p.normal / dot r.direction p.normal) 0 e then
      some (vadd r.origin (vscale r.direction (dot (vsub p.origin r.origin) p.normal / dot r.direction p.normal))) else none := by
    unfold intersectPlaneRay calcIntersectionParameter
    simp only [hz _ _ m1.val hlow]
    rfl
  have hE : |(dot (vsub (flOf p.origin) (flOf r.origin)) (flOf p.normal) / dot (flOf r.direction) (flOf p.normal)).1 - t|
      ≤ 23 * (F.unit / s * (W / s)) + 14 * ω := by
    have h6 := mul_le_mul_of_nonneg_right (show 31 / 32 ≤ Spec.norm (fun i => (flOf r.direction i).1) by linarith)
      (abs_nonneg ((dot (vsub (flOf p.origin) (flOf r.origin)) (flOf p.normal) / dot (flOf r.direction) (flOf p.normal)).1 - t))
    have h7 : 0 ≤ F.unit / s * (W / s) := mul_nonneg (by positivity) (div_nonneg (by rw [hW]; exact dist_nonneg' _ _) hs0.le)
    linarith
  obtain ⟨e1, e2⟩ := abs_le.1 hE
  refine ⟨t, _, h2, rfl, ?_, ?_, ?_⟩
  · intro q hq
    rw [hr] at hq
    split at hq
    · cases hq
      refine ⟨fun i => ⟨_, (m5 i).val⟩, ?_⟩
      rw [m5.reals]
      exact ⟨h4, h5⟩
    · cases hq
  · intro h
    change τ + 23 * (F.unit / s * _) + _ < t at h
    rw [hr, if_pos (hg _ _ m3.val (by linarith))]; rfl
  · intro h
    change t ≤ -(23 * (F.unit / s * _) + _) at h
    rw [hr, hng _ _ m3.val (by linarith)]; rfl

/-- **C154** Plane and segment, likewise, for coordinates up to `2 ^ k` and segments whose ends differ by at least `2 ^ (1 - j)` in the direction of the
normal, `k + j + 5 < emax`. -/
theorem C154_plane_segment_partial (k j : ℕ) (hk : k + j + 5 < F.emax) (p : Plane (Ieee F)) (g : Segment (Ieee F) 3) (e : Ieee F)
    (hpo : ∀ i, AtMost k (p.origin i)) (hf : ∀ i, AtMost k (g.source i) ∧ AtMost k (g.target i)) (hpn : ∀ i, ∃ x, (p.normal i).val? = some x)
    (hp : 9 ≤ F.prec) (hmin : ∀ k, F.emin = some k → k ≤ -2 * (F.prec : ℤ)) (hn : |Spec.norm (reals p.normal) - 1| ≤ 1 / 32)
    {s ω τ M W : ℝ} (hM : M = Spec.dist (reals g.target) (reals g.source)) (hM0 : 0 < M) (hW : W = Spec.dist (reals p.origin) (reals g.source))
    (hMt : ∀ k, F.emin = some k → (2 : ℝ) ^ k ≤ (2 : ℝ)⁻¹ ^ F.prec * (2 : ℝ)⁻¹ ^ F.prec * M)
    (hs0 : 0 < s) (hs : s * M ≤ |∑ i, (reals g.target i - reals g.source i) * reals p.normal i|) (hj : 2 ≤ s * M * 2 ^ j)
    (hu : 64 * (2 : ℝ)⁻¹ ^ F.prec ≤ s) (hω0 : 0 ≤ ω) (hω : ∀ k, F.emin = some k → (2 : ℝ) ^ k * (1 / s + M + 1) ≤ ω) (hτ : τ ≤ 1)
    (hz : ∀ (a : Ieee F) x, a.val? = some x → 1 / 2 * (s * M) ≤ |x| → Tol.isZero a e = false)
    (hg : ∀ (a : Ieee F) x, a.val? = some x → τ < x → Tol.isGreater a 0 e = true)
    (hng : ∀ (a : Ieee F) x, a.val? = some x → x ≤ 0 → Tol.isGreater a 0 e = false)
    (hl : ∀ (a : Ieee F) x, a.val? = some x → x ≤ 1 → Tol.isLessEq a 1 e = true)
    (hnl : ∀ (a : Ieee F) x, a.val? = some x → 1 + τ < x → Tol.isLessEq a 1 e = false) :
    ∃ t x, Spec.plane (reals p.origin) (reals p.normal) ∩ Spec.line (reals g.source) (fun i => reals g.target i - reals g.source i) = {x} ∧
      x = Spec.pointAt (reals g.source) (fun i => reals g.target i - reals g.source i) t ∧
      (∀ q, intersectPlaneSegment p g e = some q →
        (∀ i, ∃ y, (q i).val? = some y) ∧
        (∀ i, |reals q i - x i| ≤ (2 : ℝ)⁻¹ ^ F.prec * |x i| + 26 * ((2 : ℝ)⁻¹ ^ F.prec / s * (W / s)) + 17 * ω) ∧
        ∃ δ, Spec.IsDistance {reals q} (Spec.plane (reals p.origin) (reals p.normal)) δ ∧
          δ ≤ (2 : ℝ)⁻¹ ^ F.prec * (2 * ∑ i, |x i| + 36 * (W / s)) + 20 * ω) ∧
      (τ + (22 * ((2 : ℝ)⁻¹ ^ F.prec / s * (W / s)) + 14 * ω) / M < t → t ≤ 1 - (22 * ((2 : ℝ)⁻¹ ^ F.prec / s * (W / s)) + 14 * ω) / M →
        (intersectPlaneSegment p g e).isSome) ∧
      (t ≤ -((22 * ((2 : ℝ)⁻¹ ^ F.prec / s * (W / s)) + 14 * ω) / M) → intersectPlaneSegment p g e = none) ∧
      (1 + τ + (22 * ((2 : ℝ)⁻¹ ^ F.prec / s * (W / s)) + 14 * ω) / M < t → intersectPlaneSegment p g e = none) := by
  have hn' := near_direction hpn (by linarith [(abs_le.1 hn).2])
  have npo : NearVec k p.origin (flOf p.origin) := fun i => (hpo i).near
  have ns : NearVec k g.source (flOf g.source) := fun i => (hf i).1.near
  have nt : NearVec k g.target (flOf g.target) := fun i => (hf i).2.near
  have nn : NearVec 1 p.normal (flOf p.normal) := fun i => (hn' i).near
  rw [nn.reals] at hn hs ⊢
  rw [nt.reals, ns.reals] at hM hs ⊢
  rw [npo.reals, ns.reals] at hW
  rw [npo.reals]
  have hu0 := F.unit_pos
  obtain ⟨n1, n2⟩ := abs_le.1 hn
  have hMt' : F.tiny ≤ F.unit * F.unit * M := by
    unfold FloatFormat.tiny
    split
    · positivity
    · next k hk => exact hMt k hk
  obtain ⟨h1, t, h2, h3, h4, h5⟩ := plane_hit (flOf p.origin) (flOf p.normal) (flOf g.source) (vsub (flOf g.target) (flOf g.source))
    (fun i => (flOf g.target i).1 - (flOf g.source i).1) (fun i => Fl.sub_rel _ _) hp hmin hM hM0 hMt' (by linarith) (by linarith) hs0 hs hu rfl hω0 hω
  rw [← hW] at h3 h4 h5
  have hsM : 0 ≤ s * M := by positivity
  have hlow : 1 / 2 * (s * M) ≤ |(dot (vsub (flOf g.target) (flOf g.source)) (flOf p.normal)).1| := by linarith
  have nd := nt.vsub ns (by omega)
  have m1 := nd.dot nn (by omega)
  have m2 := (npo.vsub ns (by omega)).dot nn (by omega)
  have m3 := m2.div m1 (j := j) (by nlinarith [show (0 : ℝ) < 2 ^ j by positivity]) (by omega)
  have hr : intersectPlaneSegment p g e = if Tol.isGreater (dot (vsub p.origin g.source) p.normal / dot (vsub g.target g.source) p.normal) 0 e
        && Tol.isLessEq (dot (vsub p.origin g.source) p.normal / dot (vsub g.target g.source) p.normal) 1 e then
      some (vadd g.source (vscale (vsub g.target g.source) (dot (vsub p.origin g.source) p.normal / dot (vsub g.target g.source) p.normal)))
      else none := by
    unfold intersectPlaneSegment calcIntersectionParameter
    simp only [hz _ _ m1.val hlow]
    rfl
  have hE : |(dot (vsub (flOf p.origin) (flOf g.source)) (flOf p.normal) / dot (vsub (flOf g.target) (flOf g.source)) (flOf p.normal)).1 - t|
      ≤ (22 * (F.unit / s * (W / s)) + 14 * ω) / M := by
    rw [le_div_iff₀ hM0, mul_comm]
    have h7 : 0 ≤ F.unit / s * (W / s) :=
      mul_nonneg (by positivity) (div_nonneg (by rw [hW]; exact dist_nonneg' _ _) hs0.le)
    linarith
  obtain ⟨e1, e2⟩ := abs_le.1 hE
  change ∃ t x, _ ∧ _ ∧ _ ∧ (τ + (22 * (F.unit / s * (W / s)) + 14 * ω) / M < t → t ≤ 1 - (22 * (F.unit / s * (W / s)) + 14 * ω) / M → _) ∧
    (t ≤ -((22 * (F.unit / s * (W / s)) + 14 * ω) / M) → _) ∧ (1 + τ + (22 * (F.unit / s * (W / s)) + 14 * ω) / M < t → _)
  refine ⟨t, _, h2, rfl, ?_, ?_, ?_, ?_⟩
  · intro q hq
    rw [hr] at hq
    split at hq
    · next hc =>
      cases hq
      rw [Bool.and_eq_true] at hc
      have c1 := not_le.1 fun h => absurd hc.1 (by rw [hng _ _ m3.val h]; simp)
      have c2 := not_lt.1 fun h => absurd hc.2 (by rw [hnl _ _ m3.val h]; simp)
      have m3' : Near 1 _ _ := ⟨m3.val, by rw [abs_of_pos c1]; linarith⟩
      have m4 := nd.vscale m3' (by omega)
      have m5 := (ns.mono (by omega : k ≤ k + 1 + 1)).vadd m4 (by omega)
      refine ⟨fun i => ⟨_, (m5 i).val⟩, ?_⟩
      rw [m5.reals]
      exact ⟨h4, h5⟩
    · cases hq
  · intro h h'
    rw [hr, hg _ _ m3.val (by linarith), hl _ _ m3.val (by linarith)]; rfl
  · intro h
    rw [hr, hng _ _ m3.val (by linarith)]; rfl
  · intro h
    rw [hr, hnl _ _ m3.val (by linarith), Bool.and_false]; rfl

/-- **C154** Two lines in the plane in IEEE arithmetic: C113 holds for coordinates up to `2 ^ k` and angles whose sine is at least `2 ^ (1 - j)`,
`k + j + 5 < emax`. -/
theorem C154_line_2d_partial (k j : ℕ) (hk : k + j + 5 < F.emax) (l r : Line (Ieee F) 2) (e : Ieee F)
    (hlo : ∀ i, AtMost k (l.origin i)) (hro : ∀ i, AtMost k (r.origin i)) (hld : ∀ i, ∃ x, (l.direction i).val? = some x)
    (hrd : ∀ i, ∃ x, (r.direction i).val? = some x) (hp : 9 ≤ F.prec) (hmin : ∀ k, F.emin = some k → k < -2 * (F.prec : ℤ))
    (hl : |Spec.norm (reals l.direction) - 1| ≤ 1 / 32) (hr : |Spec.norm (reals r.direction) - 1| ≤ 1 / 32) {s ω W : ℝ} (hs0 : 0 < s)
    (hs : s * Spec.norm (reals l.direction) ≤ |reals l.direction 0 * reals r.direction 1 - reals l.direction 1 * reals r.direction 0|)
    (hj : 2 ≤ s * 2 ^ j) (hu : 64 * (2 : ℝ)⁻¹ ^ F.prec ≤ s) (hω0 : 0 ≤ ω) (hω : ∀ k, F.emin = some k → (2 : ℝ) ^ k * (1 / s + 3) ≤ ω)
    (hW : W = Spec.dist (reals r.origin) (reals l.origin))
    (hz : ∀ (a : Ieee F) x, a.val? = some x → 1 / 2 * s ≤ |x| → Tol.isZero a e = false) :
    ∃ q x, intersectLine2 l r e = some q ∧ (∀ i, ∃ y, (q i).val? = some y) ∧
      Spec.line (reals l.origin) (reals l.direction) ∩ Spec.line (reals r.origin) (reals r.direction) = {x} ∧
      (∀ i, |reals q i - x i| ≤ (2 : ℝ)⁻¹ ^ F.prec * |x i| + 26 * ((2 : ℝ)⁻¹ ^ F.prec / s * (W / s)) + 17 * ω) ∧
      ∃ δ, Spec.IsDistance {reals q} (Spec.line (reals r.origin) (reals r.direction)) δ ∧
        δ ≤ (2 : ℝ)⁻¹ ^ F.prec * (2 * ∑ i, |x i| + 36 * (W / s)) + 20 * ω := by
  have hl' := near_direction hld (by linarith [(abs_le.1 hl).2])
  have hr' := near_direction hrd (by linarith [(abs_le.1 hr).2])
  have nlo : NearVec k l.origin (flOf l.origin) := fun i => (hlo i).near
  have nro : NearVec k r.origin (flOf r.origin) := fun i => (hro i).near
  have nld : NearVec 1 l.direction (flOf l.direction) := fun i => (hl' i).near
  have nrd : NearVec 1 r.direction (flOf r.direction) := fun i => (hr' i).near
  rw [nld.reals] at hl hs ⊢
  rw [nrd.reals] at hr hs ⊢
  rw [nro.reals, nlo.reals] at hW ⊢
  let tol : Tol (Fl F.toFloatFormat) := tolOf (fun x => |x.1| < 1 / 2 * s) (fun _ => False) (fun _ => False)
  obtain ⟨q, x, h1, h2, h3, h4⟩ := C113_line_2d (F := F.toFloatFormat) ⟨flOf l.origin, flOf l.direction⟩ ⟨flOf r.origin, flOf r.direction⟩ 0 hp hmin hl hr hs0 hs hu hω0 hω
    (fun x hx => @decide_eq_false _ (Classical.propDecidable _) (not_lt.2 hx))
  rw [← hW] at h3 h4
  unfold intersectLine2 at h1
  simp only at h1
  split at h1
  · cases h1
  next hc =>
  have hlow := not_lt.1 fun h => hc (@decide_eq_true _ (Classical.propDecidable _) h)
  have m1 := (((nld 0).mul (nrd 1) (by omega)).sub ((nrd 0).mul (nld 1) (by omega)) (by omega))
  have nw := nro.vsub nlo (by omega)
  have m2 := (((nw 0).mul (nrd 1) (by omega)).sub ((nw 1).mul (nrd 0) (by omega)) (by omega))
  have hlow' := hlow
  rw [Fl.val_stdAbs, abs_abs] at hlow'
  have m3 := m2.div m1 (j := j) (by nlinarith [show (0 : ℝ) < 2 ^ j by positivity]) (by omega)
  have m5 := (nlo.mono (by omega : k ≤ k + j + 4)).vadd ((nld.vscale m3 (by omega)).mono (by omega)) (by omega)
  refine ⟨_, x, ?_, fun i => ⟨_, (m5 i).val⟩, h2, ?_⟩
  · unfold intersectLine2
    simp only [hz _ _ m1.stdAbs.val hlow]
    rfl
  · rw [m5.reals]
    cases h1
    exact ⟨h3, h4⟩

/-- **C154** Two nearly parallel lines in the plane: nothing is reported, whatever the origins. -/
theorem C154_line_2d_none (l r : Line (Ieee F) 2) (e : Ieee F) (h3 : 3 < F.emax) (hld : ∀ i, ∃ x, (l.direction i).val? = some x)
    (hrd : ∀ i, ∃ x, (r.direction i).val? = some x) (hp : 9 ≤ F.prec) (hmin : ∀ k, F.emin = some k → k ≤ -2 * (F.prec : ℤ))
    (hl : Spec.norm (reals l.direction) ≤ 33 / 32) (hr : Spec.norm (reals r.direction) ≤ 33 / 32)
    (hz : ∀ (a : Ieee F) x, a.val? = some x →
      |x| ≤ |reals l.direction 0 * reals r.direction 1 - reals l.direction 1 * reals r.direction 0| + 5 * (2 : ℝ)⁻¹ ^ F.prec → Tol.isZero a e = true) :
    intersectLine2 l r e = none := by
  have hl' := near_direction hld (by linarith)
  have hr' := near_direction hrd (by linarith)
  have nld : NearVec 1 l.direction (flOf l.direction) := fun i => (hl' i).near
  have nrd : NearVec 1 r.direction (flOf r.direction) := fun i => (hr' i).near
  rw [nld.reals] at hl hz
  rw [nrd.reals] at hr hz
  let tol : Tol (Fl F.toFloatFormat) :=
    tolOf (fun x => |x.1| ≤ |(flOf l.direction 0).1 * (flOf r.direction 1).1 - (flOf l.direction 1).1 * (flOf r.direction 0).1| + 5 * (2 : ℝ)⁻¹ ^ F.prec)
      (fun _ => False) (fun _ => False)
  have h1 := C113_line_2d_none (F := F.toFloatFormat) ⟨0, flOf l.direction⟩ ⟨0, flOf r.direction⟩ 0 hp hmin hl hr
    (fun x hx => @decide_eq_true _ (Classical.propDecidable _) hx)
  unfold intersectLine2 at h1
  simp only at h1
  split at h1
  · next hc =>
    have hlow : |_| ≤ _ := of_decide_eq_true hc
    have m1 := (((nld 0).mul (nrd 1) (by omega)).sub ((nrd 0).mul (nld 1) (by omega)) (by omega))
    unfold intersectLine2
    simp only [hz _ _ m1.stdAbs.val hlow]
    rfl
  · cases h1

/-- The parameters of the closest points of two lines with directions of about unit length. -/
theorem closest_near {k j : ℕ} {o d o' d' : Vec (Ieee F) 3} {x y x' y' : Vec (Fl F.toFloatFormat) 3} (ho : NearVec k o x) (ho' : NearVec k o' x')
    (hd : NearVec 1 d y) (hd' : NearVec 1 d' y') (hk : k + j + 11 < F.emax) {B : ℝ} (hj : 1 ≤ B * 2 ^ j) {par : CPOLParameters (Fl F.toFloatFormat)}
    (hpar : @closestPointOnLineParameters _ _ _ _ _ _ _ (tolOf (fun x => |x.1| < B) (fun _ => False) (fun _ => False)) x y x' y' 0 = some par)
    {e : Ieee F} (hz : ∀ (a : Ieee F) x, a.val? = some x → B ≤ |x| → Tol.isZero a e = false) :
    ∃ q, closestPointOnLineParameters o d o' d' e = some q ∧ Near (k + j + 11) q.t par.t ∧ Near (k + j + 11) q.s par.s := by
  have hw := ho.vsub ho' (by omega)
  have a := hd.dot hd (by omega)
  have b := hd.dot hd' (by omega)
  have c := hd'.dot hd' (by omega)
  have u := hd.dot hw (by omega)
  have v := hd'.dot hw (by omega)
  have m := (a.mul c (by omega)).sub (b.mul b (by omega)) (by omega)
  have m1 := ((b.mul v (by omega)).sub (c.mul u (by omega)) (by omega))
  have m2 := ((a.mul v (by omega)).sub (b.mul u (by omega)) (by omega))
  unfold closestPointOnLineParameters at hpar
  simp only at hpar
  split at hpar
  · cases hpar
  next hc =>
  have hlow := not_lt.1 fun h => hc (@decide_eq_true _ (Classical.propDecidable _) h)
  have hj' := hj.trans (mul_le_mul_of_nonneg_right hlow (show (0 : ℝ) ≤ 2 ^ j by positivity))
  cases hpar
  refine ⟨⟨_, _⟩, ?_, (m1.div m hj' (by omega)).mono (by omega), (m2.div m hj' (by omega)).mono (by omega)⟩
  unfold closestPointOnLineParameters
  simp only [hz _ _ m.val hlow]
  rfl

/-- **C154** Two lines in space in IEEE arithmetic: C114 holds for coordinates up to `2 ^ k` and angles whose squared sine is at least `2 ^ (1 - j)`,
`2 k + 2 j + 31 < emax`. -/
theorem C154_line_3d_partial (k j : ℕ) (hk : 2 * k + 2 * j + 31 < F.emax) (l r : Line (Ieee F) 3) (e : Ieee F)
    (hlo : ∀ i, AtMost k (l.origin i)) (hro : ∀ i, AtMost k (r.origin i)) (hld : ∀ i, ∃ x, (l.direction i).val? = some x)
    (hrd : ∀ i, ∃ x, (r.direction i).val? = some x) (hp : 9 ≤ F.prec) (hmin : ∀ k, F.emin = some k → k ≤ -4 * (F.prec : ℤ))
    (hl : Spec.norm (reals l.direction) ≤ 33 / 32) (hr : Spec.norm (reals r.direction) ≤ 33 / 32)
    {s ω : ℝ} (hs0 : 0 < s) (hs : s ^ 2 ≤ Spec.gram (reals l.direction) (reals r.direction)) (hj : 2 ≤ s ^ 2 * 2 ^ j)
    (hu : 256 * (2 : ℝ)⁻¹ ^ F.prec ≤ s ^ 2) (hω0 : 0 ≤ ω) (hω : ∀ k, F.emin = some k → (2 : ℝ) ^ k * (1 / s ^ 2 + 1) ≤ ω)
    (hω2 : ∀ k, F.emin = some k → 10 * (2 : ℝ) ^ k ≤ ω ^ 2)
    (hz : ∀ (a : Ieee F) x, a.val? = some x → 1 / 2 * s ^ 2 ≤ |x| → isZero a = false) {E W : ℝ} (hW : W = Spec.dist (reals l.origin) (reals r.origin))
    (hE : E = 2 * (2 : ℝ)⁻¹ ^ F.prec * (Spec.norm (reals l.origin) + Spec.norm (reals r.origin)) + 290 * ((2 : ℝ)⁻¹ ^ F.prec / s ^ 2 * (W / s)) + 92 * ω) :
    ∃ P Q, P ∈ Spec.line (reals l.origin) (reals l.direction) ∧ Q ∈ Spec.line (reals r.origin) (reals r.direction) ∧
      Spec.IsDistance (Spec.line (reals l.origin) (reals l.direction)) (Spec.line (reals r.origin) (reals r.direction)) (Spec.dist P Q) ∧
      (∀ q, intersectLine3 l r e = some q → (∀ i, ∃ y, (q i).val? = some y) ∧
        Spec.dist (reals q) P ≤ (2 : ℝ)⁻¹ ^ F.prec * Spec.norm (reals l.origin) + 135 * ((2 : ℝ)⁻¹ ^ F.prec / s ^ 2 * (W / s)) + 43 * ω) ∧
      (∀ θ, (∀ (a : Ieee F) x, a.val? = some x → |x| ≤ θ → Tol.isZero a e = true) → Spec.dist P Q + E ≤ θ → intersectLine3 l r e ≠ none) ∧
      (∀ θ, (∀ (a : Ieee F) x, a.val? = some x → θ < |x| → Tol.isZero a e = false) → θ + E < Spec.dist P Q → intersectLine3 l r e = none) := by
  have hl' := near_direction hld (by linarith)
  have hr' := near_direction hrd (by linarith)
  have nlo : NearVec k l.origin (flOf l.origin) := fun i => (hlo i).near
  have nro : NearVec k r.origin (flOf r.origin) := fun i => (hro i).near
  have nld : NearVec 1 l.direction (flOf l.direction) := fun i => (hl' i).near
  have nrd : NearVec 1 r.direction (flOf r.direction) := fun i => (hr' i).near
  rw [nld.reals] at hl hs ⊢
  rw [nrd.reals] at hr hs ⊢
  rw [nro.reals, nlo.reals] at hW hE ⊢
  have hω' : F.tiny * (1 / s ^ 2 + 1) ≤ ω := by
    unfold FloatFormat.tiny
    split
    · rw [zero_mul]; exact hω0
    · next k hk => exact hω k hk
  obtain ⟨par, t, z, hpar, c1, c2, -, p1, -, hL⟩ :=
    @closest_points F.toFloatFormat (tolOf (fun x => |x.1| < 1 / 2 * s ^ 2) (fun _ => False) (fun _ => False)) (flOf l.origin) (flOf l.direction) (flOf r.origin) (flOf r.direction)
      0 hp hmin hl hr s ω hs0 hs hu hω' (root_le hω0 fun k hk => by have := hω2 k hk; push_cast; linarith)
      (fun x hx => @decide_eq_false _ (Classical.propDecidable _) (not_lt.2 hx))
  obtain ⟨par', h1, n1, n2⟩ := closest_near (j := j) nlo nro nld nrd (by omega) (by linarith) hpar hz
  have m1 := (nlo.mono (by omega : k ≤ k + j + 12)).vadd ((nld.vscale n1 (by omega)).mono (by omega)) (by omega)
  have m2 := (nro.mono (by omega : k ≤ k + j + 12)).vadd ((nrd.vscale n2 (by omega)).mono (by omega)) (by omega)
  have m3 := (m1.vsub m2 (by omega)).length (by omega)
  change Spec.dist _ (Spec.pointAt (fun i => (flOf l.origin i).1) (fun i => (flOf l.direction i).1) t) ≤ (2 : ℝ)⁻¹ ^ F.prec * Spec.norm (fun i => (flOf l.origin i).1)
    + 135 * ((2 : ℝ)⁻¹ ^ F.prec / s ^ 2 * (Spec.dist (fun i => (flOf l.origin i).1) (fun i => (flOf r.origin i).1) / s)) + 43 * ω at p1
  change |_ - Spec.dist (Spec.pointAt (fun i => (flOf l.origin i).1) (fun i => (flOf l.direction i).1) t) (Spec.pointAt (fun i => (flOf r.origin i).1) (fun i => (flOf r.direction i).1) z)|
    ≤ 2 * (2 : ℝ)⁻¹ ^ F.prec * (Spec.norm (fun i => (flOf l.origin i).1) + Spec.norm (fun i => (flOf r.origin i).1))
      + 290 * ((2 : ℝ)⁻¹ ^ F.prec / s ^ 2 * (Spec.dist (fun i => (flOf l.origin i).1) (fun i => (flOf r.origin i).1) / s)) + 92 * ω at hL
  rw [← hW] at p1 hL
  rw [← hE] at hL
  have hrun : intersectLine3 l r e = if Tol.isZero (length (vsub (vadd l.origin (vscale l.direction par'.t)) (vadd r.origin (vscale r.direction par'.s)))) e
      then some (vadd l.origin (vscale l.direction par'.t)) else none := by
    unfold intersectLine3
    rw [h1]
  rw [hrun]
  obtain ⟨l1, l2⟩ := abs_le.1 hL
  refine ⟨_, _, ⟨t, rfl⟩, ⟨z, rfl⟩, critical_distance c1 c2, ?_, ?_, ?_⟩
  · intro q hq
    split at hq
    · cases hq
      refine ⟨fun i => ⟨_, (m1 i).val⟩, ?_⟩
      rw [m1.reals]
      exact p1
    · cases hq
  · intro θ h1 h2
    rw [h1 _ _ m3.val, if_pos rfl]
    · simp
    · rw [abs_of_nonneg (length_nonneg_fl _)]
      linarith
  · intro θ h1 h2
    rw [h1 _ _ m3.val]
    · simp
    · refine lt_of_lt_of_le ?_ (le_abs_self _)
      linarith

end

/-! ### Overflow -/

theorem bad_add {a b : Ieee F} (h : a.val? = none ∨ b.val? = none) : (a + b).val? = none := by
  rcases h with h | h
  · cases a <;> simp only [val?, reduceCtorEq] at h
    · rfl
    · next s =>
      cases b with
      | inf t => cases s <;> cases t <;> rfl
      | _ => rfl
  · cases b <;> simp only [val?, reduceCtorEq] at h
    · cases a <;> rfl
    · next s =>
      cases a with
      | inf t => cases s <;> cases t <;> rfl
      | _ => rfl

theorem bad_neg {a : Ieee F} (h : a.val? = none) : (-a).val? = none := by
  cases a <;> simp only [val?, reduceCtorEq] at h <;> rfl

theorem bad_sub {a b : Ieee F} (h : a.val? = none ∨ b.val? = none) : (a - b).val? = none := bad_add (h.imp_right bad_neg)

theorem bad_mul {a b : Ieee F} (h : a.val? = none ∨ b.val? = none) : (a * b).val? = none := by
  classical
  have two : ∀ (c : Prop) [Decidable c] (t : Bool), (if c then nan else inf t : Ieee F).val? = none := by
    intro c _ t; split_ifs <;> rfl
  rcases h with h | h
  · cases a <;> simp only [val?, reduceCtorEq] at h
    · rfl
    · cases b with
      | nan => rfl
      | _ => exact @two _ (Classical.propDecidable _) _
  · cases b <;> simp only [val?, reduceCtorEq] at h
    · cases a <;> rfl
    · cases a with
      | nan => rfl
      | _ => exact @two _ (Classical.propDecidable _) _

theorem bad_div {a b : Ieee F} (h : a.val? = none) : (a / b).val? = none := by
  cases a <;> simp only [val?, reduceCtorEq] at h
  · rfl
  · cases b <;> rfl

theorem bad_dot {a b : Vec (Ieee F) 3} (h : ∃ i, (a i).val? = none ∨ (b i).val? = none) : (dot a b).val? = none := by
  have e : dot a b = 0 + a 0 * b 0 + a 1 * b 1 + a 2 * b 2 := by
    unfold dot
    rw [Fin.foldl_succ_last, Fin.foldl_succ_last, Fin.foldl_succ_last, Fin.foldl_zero]
    rfl
  rw [e]
  obtain ⟨i, hi⟩ := h
  fin_cases i
  · exact bad_add (.inl (bad_add (.inl (bad_add (.inr (bad_mul hi))))))
  · exact bad_add (.inl (bad_add (.inr (bad_mul hi))))
  · exact bad_add (.inr (bad_mul hi))

/-- A sum of finite numbers that overflows. -/
theorem add_over {a b : Ieee F} {x y : ℝ} {n : ℕ} (ha : a.val? = some x) (hb : b.val? = some y) (hn : F.emax ≤ n)
    (h : x + y = 2 ^ n ∨ x + y = -2 ^ n) : (a + b).val? = none := by
  obtain ⟨s, hs⟩ := add_def ha hb
  have hr : F.rnd (x + y) = x + y := F.rounds.exact (by
    rcases h with h | h
    · rw [h]; exact pow_mem _ _
    · rw [h]; exact (pow_mem _ _).neg)
  have hbig : (2 : ℝ) ^ F.emax ≤ |x + y| := by
    have : (2 : ℝ) ^ F.emax ≤ 2 ^ n := pow_le_pow_right₀ (by norm_num) hn
    have h0 : (0 : ℝ) < 2 ^ n := by positivity
    rcases h with h | h <;> rw [h]
    · rwa [abs_of_pos h0]
    · rwa [abs_neg, abs_of_pos h0]
  rw [hs]
  rcases ofReal_cases (F := F) s (x + y) with ⟨q, h2, h3⟩ | ⟨h1, -, -⟩
  · exfalso
    rw [h3, hr] at h2
    exact absurd (val_mem h2).2 (not_lt.2 hbig)
  · rw [h1]; rfl

section
variable [Tol (Ieee F)]

/-- **C154** Refutation without a bound on the coordinates, for every tolerance. With `M = 2 ^ (emax - 1)`, half of the smallest power of two that overflows:
the ray from `(0, 0, -M)` along the third axis meets the plane `z = M`, the segment from `(0, 0, -M)` to `(0, 0, M)` the plane `z = 0`, and the line
through `(M, 0)` along the first axis the line through `(-M, 0)` along the second, in the plane as in space; in all four cases either nothing is reported
or a point with a coordinate that is infinite or NaN. -/
theorem C154_counterexample (e : Ieee F) :
    ∃ (m n : Ieee F) (M : ℝ), M = 2 ^ (F.emax - 1) ∧ m.val? = some M ∧ n.val? = some (-M) ∧
      Spec.plane (reals ![0, 0, m]) (reals ![0, 0, (1 : Ieee F)]) ∩ Spec.rayUpTo 0 (reals ![0, 0, n]) (reals ![0, 0, (1 : Ieee F)]) = {![0, 0, M]} ∧
      (∀ q, intersectPlaneRay ⟨![0, 0, m], ![0, 0, 1]⟩ ⟨![0, 0, n], ![0, 0, 1]⟩ e = some q → ∀ i, (q i).val? = none) ∧
      Spec.plane (reals ![0, 0, (0 : Ieee F)]) (reals ![0, 0, (1 : Ieee F)]) ∩ Spec.segment (reals ![0, 0, n]) (reals ![0, 0, m]) = {0} ∧
      (∀ q, intersectPlaneSegment ⟨![0, 0, 0], ![0, 0, 1]⟩ ⟨![0, 0, n], ![0, 0, m]⟩ e = some q → (q 2).val? = none) ∧
      Spec.line (reals ![m, 0]) (reals ![(1 : Ieee F), 0]) ∩ Spec.line (reals ![n, 0]) (reals ![(0 : Ieee F), 1]) = {![-M, 0]} ∧
      (∀ q, intersectLine2 ⟨![m, 0], ![1, 0]⟩ ⟨![n, 0], ![0, 1]⟩ e = some q → ∀ i, (q i).val? = none) ∧
      Spec.line (reals ![m, 0, 0]) (reals ![(1 : Ieee F), 0, 0]) ∩ Spec.line (reals ![n, 0, 0]) (reals ![(0 : Ieee F), 1, 0]) = {![-M, 0, 0]} ∧
      (∀ q, intersectLine3 ⟨![m, 0, 0], ![1, 0, 0]⟩ ⟨![n, 0, 0], ![0, 1, 0]⟩ e = some q → ∀ i, (q i).val? = none) := by
  have hF := F.one_lt_emax
  have hn : F.emax - 1 < F.emax := by omega
  set m := pow2 F (F.emax - 1) hn with hm
  set M : ℝ := 2 ^ (F.emax - 1) with hM
  have hM0 : 0 < M := by positivity
  have hv : m.val? = some M := pow2_val _ _
  have hv' : (-m).val? = some (-M) := neg_val hv
  have h2 : M + M = 2 ^ F.emax := by
    rw [hM, ← two_mul, ← pow_succ']; congr 1; omega
  have o1 : (m - -m).val? = none := add_over hv (neg_val hv') le_rfl (.inl (by rw [neg_neg]; exact h2))
  have o2 : (-m - m).val? = none := add_over hv' hv' le_rfl (.inr (by rw [← h2]; ring))
  have rm : reals ![0, 0, m] = ![0, 0, M] := by funext i; fin_cases i <;> rfl
  have rn : reals ![0, 0, -m] = ![0, 0, -M] := by
    funext i; fin_cases i
    · rfl
    · rfl
    · show (-m).val?.getD 0 = _
      rw [hv']; rfl
  have r0 : reals ![0, 0, (0 : Ieee F)] = ![0, 0, 0] := by funext i; fin_cases i <;> rfl
  have r1 : reals ![0, 0, (1 : Ieee F)] = ![0, 0, 1] := by funext i; fin_cases i <;> rfl
  have a1 : reals ![m, 0] = ![M, 0] := by funext i; fin_cases i <;> rfl
  have a2 : reals ![-m, 0] = ![-M, 0] := by
    funext i; fin_cases i
    · show (-m).val?.getD 0 = _
      rw [hv']; rfl
    · rfl
  have a3 : reals ![(1 : Ieee F), 0] = ![1, 0] := by funext i; fin_cases i <;> rfl
  have a4 : reals ![(0 : Ieee F), 1] = ![0, 1] := by funext i; fin_cases i <;> rfl
  have b1 : reals ![m, 0, 0] = ![M, 0, 0] := by funext i; fin_cases i <;> rfl
  have b2 : reals ![-m, 0, 0] = ![-M, 0, 0] := by
    funext i; fin_cases i
    · show (-m).val?.getD 0 = _
      rw [hv']; rfl
    · rfl
    · rfl
  have b3 : reals ![(1 : Ieee F), 0, 0] = ![1, 0, 0] := by funext i; fin_cases i <;> rfl
  have b4 : reals ![(0 : Ieee F), 1, 0] = ![0, 1, 0] := by funext i; fin_cases i <;> rfl
  refine ⟨m, -m, M, rfl, hv, hv', ?_, ?_, ?_, ?_, ?_, ?_, ?_, ?_⟩
  · rw [rm, rn, r1]
    ext y
    constructor
    · rintro ⟨hy, t, ht, rfl⟩
      have h : -M + t - M = 0 := by simpa [Spec.plane, Spec.pointAt, Fin.sum_univ_three] using hy
      obtain rfl : t = M + M := by linarith
      show _ = _
      funext i; fin_cases i <;> simp [Spec.pointAt]
    · rintro rfl
      refine ⟨by simp [Spec.plane, Fin.sum_univ_three], M + M, by linarith, ?_⟩
      funext i; fin_cases i <;> simp [Spec.pointAt]
  · intro q hq i
    unfold intersectPlaneRay calcIntersectionParameter at hq
    split at hq
    · cases hq
    next t ht =>
    split at ht
    · cases ht
    split at hq
    · cases ht
      cases hq
      exact bad_add (.inr (bad_mul (.inr (bad_div (bad_dot ⟨2, .inl o1⟩)))))
    · cases hq
  · rw [r0, r1, rm, rn]
    ext y
    constructor
    · rintro ⟨hy, t, ht0, ht1, rfl⟩
      have h : -M + t * (M + M) = 0 := by simpa [Spec.plane, Spec.pointAt, Fin.sum_univ_three] using hy
      obtain rfl : t = 1 / 2 := by
        have : (t - 1 / 2) * (M + M) = 0 := by linarith
        rcases mul_eq_zero.1 this with h | h <;> linarith
      show _ = _
      funext i; fin_cases i <;> simp
      linarith
    · rintro rfl
      refine ⟨by simp [Spec.plane, Fin.sum_univ_three], 1 / 2, by norm_num, by norm_num, ?_⟩
      funext i; fin_cases i <;> simp
      linarith
  · intro q hq
    unfold intersectPlaneSegment at hq
    simp only at hq
    split at hq
    · cases hq
    split at hq
    · cases hq
      exact bad_add (.inr (bad_mul (.inl o1)))
    · cases hq
  · rw [a1, a2, a3, a4]
    ext y
    constructor
    · rintro ⟨⟨t, rfl⟩, s, hs⟩
      have h := congrFun hs 0
      simp [Spec.pointAt] at h
      show _ = _
      funext i; fin_cases i <;> simp [Spec.pointAt]
      linarith
    · rintro rfl
      refine ⟨⟨-M - M, ?_⟩, 0, ?_⟩ <;> (funext i; fin_cases i <;> simp [Spec.pointAt])
  · intro q hq i
    unfold intersectLine2 at hq
    simp only at hq
    split at hq
    · cases hq
    · cases hq
      exact bad_add (.inr (bad_mul (.inr (bad_div (bad_sub (.inl (bad_mul (.inl o2))))))))
  · rw [b1, b2, b3, b4]
    ext y
    constructor
    · rintro ⟨⟨t, rfl⟩, s, hs⟩
      have h := congrFun hs 0
      simp [Spec.pointAt] at h
      show _ = _
      funext i; fin_cases i <;> simp [Spec.pointAt]
      linarith
    · rintro rfl
      refine ⟨⟨-M - M, ?_⟩, 0, ?_⟩ <;> (funext i; fin_cases i <;> simp [Spec.pointAt])
  · intro q hq i
    unfold intersectLine3 closestPointOnLineParameters at hq
    simp only at hq
    split at hq
    · cases hq
    next t ht =>
    split at ht
    · cases ht
    split at hq
    · cases ht
      cases hq
      exact bad_add (.inr (bad_mul (.inr (bad_div (bad_sub (.inl (bad_mul (.inr (bad_dot ⟨0, .inr o1⟩)))))))))
    · cases hq
end
end Ieee

/-! ### Non-vacuity -/
section Examples
open Ieee
attribute [local instance] tolIe

theorem nzIe {c : ℝ} (hc : 1 / 10 ≤ c) (a : Ieee double64) (x : ℝ) (ha : a.val? = some x) (hx : c ≤ |x|) : Tol.isZero a Tol.eps = false := by
  refine dec_false ?_
  rintro ⟨y, hy, hle⟩
  cases ha.symm.trans hy
  norm_num at hle hc
  linarith

theorem ngIe (a : Ieee double64) (x : ℝ) (ha : a.val? = some x) (hx : x ≤ 0) : Tol.isGreater a 0 Tol.eps = false := by
  refine dec_false ?_
  rintro ⟨y, z, hy, hz, hlt⟩
  cases ha.symm.trans hy
  cases hz
  change (0 : ℝ) + 1 / 10 ^ 6 < x at hlt
  norm_num at hlt
  linarith

theorem nlIe (a : Ieee double64) (x : ℝ) (ha : a.val? = some x) (hx : 1 + 1 / 10 ^ 6 < x) : Tol.isLessEq a 1 Tol.eps = false := by
  refine dec_false ?_
  rintro ⟨y, z, hy, hz, hlt⟩
  cases ha.symm.trans hy
  cases hz
  change x ≤ (1 : ℝ) + 1 / 10 ^ 6 at hlt
  linarith

theorem q331_W : (3 : ℝ) = Spec.dist (reals (q64 3 3 1)) (reals (q64 1 1 0)) := by
  rw [q64_vals, q64_vals]; exact (dist3 _ _ _ _ _ _ 3 (by norm_num) (by norm_num)).symm

/-- The ray from (1, 1, 0) along the third axis meets the plane z = 1. -/
example : (intersectPlaneRay ⟨q64 3 3 1, q64 0 0 1⟩ ⟨q64 1 1 0, q64 0 0 1⟩).isSome := by
  obtain ⟨t, x, h1, h2, -, h3, -⟩ := C154_plane_ray_partial (F := double64) 1000 1 (by show 1000 + 1 + 7 < 1024; norm_num) ⟨q64 3 3 1, q64 0 0 1⟩
    ⟨q64 1 1 0, q64 0 0 1⟩ Tol.eps (fun i => q64_most _ (by norm_num) _ _ _ _ _ _ i) (fun i => q64_most _ (by norm_num) _ _ _ _ _ _ i)
    (fun i => q64_fin _ _ _ _ _ _ i) (fun i => q64_fin _ _ _ _ _ _ i) (by show 9 ≤ 53; norm_num) emin64_lt
    (by rw [q001_norm]; norm_num) (by rw [q001_norm]; norm_num) (s := 1) (ω := 1 / 10 ^ 18) (τ := 1 / 10 ^ 6) (W := 3) (by norm_num)
    (by rw [q001_norm, q001, Fin.sum_univ_three]; simp) (by norm_num) (by show 64 * (2 : ℝ)⁻¹ ^ 53 ≤ _; norm_num) (by norm_num) (emin64_mul (by norm_num))
    q331_W (nzIe (by norm_num)) greaterIe.2 ngIe
  have ht : t = 1 := by
    have h4 := (h1.symm.subset (Set.mem_singleton _)).1
    rw [h2, q001, q64_vals, q64_vals] at h4
    have : t - 1 = 0 := by simpa [Spec.plane, Spec.pointAt, Fin.sum_univ_three] using h4
    linarith
  refine h3 ?_
  rw [ht]
  have hu := unit64'
  change (2 : ℝ)⁻¹ ^ double64.prec ≤ _ at hu
  generalize (2 : ℝ)⁻¹ ^ double64.prec = μ at hu ⊢
  norm_num at hu ⊢; linarith

/-- The segment from (1, 1, 0) to (4, 7, 2) meets it half way. -/
example : (intersectPlaneSegment ⟨q64 3 3 1, q64 0 0 1⟩ ⟨q64 1 1 0, q64 4 7 2⟩).isSome := by
  have hd : (fun i => reals (q64 4 7 2) i - reals (q64 1 1 0) i) = ![3, 6, 2] := by
    rw [q64_vals, q64_vals]
    funext i; fin_cases i <;> simp <;> norm_num
  obtain ⟨t, x, h1, h2, -, h3, -⟩ := C154_plane_segment_partial (F := double64) 1000 0 (by show 1000 + 0 + 5 < 1024; norm_num) ⟨q64 3 3 1, q64 0 0 1⟩
    ⟨q64 1 1 0, q64 4 7 2⟩ Tol.eps (fun i => q64_most _ (by norm_num) _ _ _ _ _ _ i)
    (fun i => ⟨q64_most _ (by norm_num) _ _ _ _ _ _ i, q64_most _ (by norm_num) _ _ _ _ _ _ i⟩)
    (fun i => q64_fin _ _ _ _ _ _ i) (by show 9 ≤ 53; norm_num) (fun k hk => (emin64_lt k hk).le)
    (by rw [q001_norm]; norm_num) (s := 2 / 7) (ω := 1 / 10 ^ 18) (τ := 1 / 10 ^ 6) (M := 7) (W := 3)
    (by rw [q64_vals, q64_vals]; exact (dist3 _ _ _ _ _ _ 7 (by norm_num) (by norm_num)).symm) (by norm_num) q331_W
    (by
      intro k hk
      cases hk
      show (2 : ℝ) ^ (-1074 : ℤ) ≤ (2 : ℝ)⁻¹ ^ 53 * (2 : ℝ)⁻¹ ^ 53 * 7
      have : (2 : ℝ) ^ (-1074 : ℤ) ≤ 2 ^ (-106 : ℤ) := zpow_le_zpow_right₀ (by norm_num) (by norm_num)
      refine this.trans ?_
      norm_num)
    (by norm_num) (by rw [Fin.sum_univ_three, q001]; simp only [congrFun hd]; simp) (by norm_num)
    (by show 64 * (2 : ℝ)⁻¹ ^ 53 ≤ _; norm_num) (by norm_num) (emin64_mul (by norm_num)) (by norm_num)
    (nzIe (by norm_num)) greaterIe.2 ngIe lessEqIe.2 nlIe
  have ht : t = 1 / 2 := by
    have h4 := (h1.symm.subset (Set.mem_singleton _)).1
    rw [h2, hd, q001, q64_vals, q64_vals] at h4
    have : t * 2 - 1 = 0 := by simpa [Spec.plane, Spec.pointAt, Fin.sum_univ_three] using h4
    linarith
  have hu := unit64'
  change (2 : ℝ)⁻¹ ^ double64.prec ≤ _ at hu
  refine h3 ?_ ?_ <;> rw [ht] <;> generalize (2 : ℝ)⁻¹ ^ double64.prec = μ at hu ⊢ <;> norm_num at hu ⊢ <;> linarith

theorem w64_vals (a b : ℤ) (ha : |a| < 2 ^ 53) (hb : |b| < 2 ^ 53) : reals ![ie64 a ha, ie64 b hb] = ![(a : ℝ), (b : ℝ)] := by
  funext i; fin_cases i <;> rfl

theorem norm2 (a b c : ℝ) (hc : 0 ≤ c) (h : a ^ 2 + b ^ 2 = c ^ 2) : Spec.norm (![a, b] : Vec ℝ 2) = c := by
  unfold Spec.norm
  rw [Fin.sum_univ_two]
  exact (congrArg Real.sqrt h).trans (Real.sqrt_sq hc)

/-- The line along the first axis and the line through (3, 4) along the second meet in (3, 0). -/
example : ∃ q, intersectLine2 ⟨![ie64 0, ie64 0], ![ie64 1, ie64 0]⟩ ⟨![ie64 3, ie64 4], ![ie64 0, ie64 1]⟩ = some q ∧ |reals q 0 - 3| ≤ 1 / 10 ^ 12 := by
  have n1 : Spec.norm (reals ![ie64 1, ie64 0]) = 1 := by rw [w64_vals]; exact norm2 _ _ 1 (by norm_num) (by norm_num)
  have n2 : Spec.norm (reals ![ie64 0, ie64 1]) = 1 := by rw [w64_vals]; exact norm2 _ _ 1 (by norm_num) (by norm_num)
  have hm : ∀ (a b : ℤ) (ha : |a| < 2 ^ 53) (hb : |b| < 2 ^ 53) (i : Fin 2), AtMost 1000 (![ie64 a ha, ie64 b hb] i) := by
    intro a b ha hb i; fin_cases i <;> exact ie64_most _ (by norm_num) _ _
  obtain ⟨q, x, h1, -, h2, h3, -⟩ := C154_line_2d_partial (F := double64) 1000 1 (by show 1000 + 1 + 5 < 1024; norm_num)
    ⟨![ie64 0, ie64 0], ![ie64 1, ie64 0]⟩ ⟨![ie64 3, ie64 4], ![ie64 0, ie64 1]⟩ Tol.eps (hm _ _ _ _) (hm _ _ _ _)
    (fun i => (hm _ _ _ _ i).imp fun _ h => h.1) (fun i => (hm _ _ _ _ i).imp fun _ h => h.1) (by show 9 ≤ 53; norm_num) emin64_lt
    (by rw [n1]; norm_num) (by rw [n2]; norm_num) (s := 1) (ω := 1 / 10 ^ 18) (W := 5) (by norm_num)
    (by rw [n1, w64_vals, w64_vals]; simp) (by norm_num) (by show 64 * (2 : ℝ)⁻¹ ^ 53 ≤ _; norm_num) (by norm_num) (emin64_mul (by norm_num))
    (by
      rw [w64_vals, w64_vals]
      have := norm2 3 4 5 (by norm_num) (by norm_num)
      refine this.symm.trans ?_
      unfold Spec.norm Spec.dist
      congr 1
      rw [Fin.sum_univ_two, Fin.sum_univ_two]
      simp)
    (nzIe (by norm_num))
  refine ⟨q, h1, ?_⟩
  have hx : ![3, 0] ∈ ({x} : Set (Vec ℝ 2)) := by
    rw [← h2, w64_vals, w64_vals, w64_vals, w64_vals]
    refine ⟨⟨3, ?_⟩, -4, ?_⟩ <;> (funext i; fin_cases i <;> simp [Spec.pointAt])
  obtain rfl : ![3, 0] = x := hx
  have h := h3 0
  have hu := unit64'
  change (2 : ℝ)⁻¹ ^ double64.prec ≤ _ at hu
  simp only [Matrix.cons_val_zero] at h
  generalize (2 : ℝ)⁻¹ ^ double64.prec = μ at hu h
  norm_num at hu h ⊢; linarith

/-- Parallel lines. -/
example (o o' : Vec (Ieee double64) 2) : intersectLine2 ⟨o, ![ie64 1, ie64 0]⟩ ⟨o', ![ie64 1, ie64 0]⟩ = none := by
  have n1 : Spec.norm (reals ![ie64 1, ie64 0]) = 1 := by rw [w64_vals]; exact norm2 _ _ 1 (by norm_num) (by norm_num)
  have hf : ∀ i : Fin 2, ∃ x, (![ie64 1, ie64 0] i).val? = some x := by intro i; fin_cases i <;> exact ⟨_, rfl⟩
  refine C154_line_2d_none (F := double64) _ _ _ (by show 3 < 1024; norm_num) hf hf (by show 9 ≤ 53; norm_num) (fun k hk => (emin64_lt k hk).le)
    (by rw [n1]; norm_num) (by rw [n1]; norm_num) fun a x ha hx => dec_true ⟨x, ha, hx.trans ?_⟩
  have hu := unit64'
  change (2 : ℝ)⁻¹ ^ double64.prec ≤ _ at hu
  generalize (2 : ℝ)⁻¹ ^ double64.prec = μ at hu ⊢
  rw [mul_comm, sub_self, abs_zero]
  norm_num at hu ⊢; linarith

/-- The line along the first axis and the lines through (7, 1, c) along the second: for c = 3 nothing is reported, for c = 0 a point is. -/
example : intersectLine3 ⟨q64 0 0 0, q64 1 0 0⟩ ⟨q64 7 1 3, q64 0 1 0⟩ = none ∧ ∃ q, intersectLine3 ⟨q64 0 0 0, q64 1 0 0⟩ ⟨q64 7 1 0, q64 0 1 0⟩ = some q := by
  have n1 : Spec.norm (reals (q64 1 0 0)) = 1 := by rw [q64_vals]; exact norm3 _ _ _ 1 (by norm_num) (by norm_num)
  have key := fun (c : ℤ) (hc : |c| < 2 ^ 53) => C154_line_3d_partial (F := double64) 400 1 (by show 2 * 400 + 2 * 1 + 31 < 1024; norm_num)
    ⟨q64 0 0 0, q64 1 0 0⟩ ⟨q64 7 1 c (by norm_num) (by norm_num) hc, q64 0 1 0⟩ Tol.eps (fun i => q64_most _ (by norm_num) _ _ _ _ _ _ i)
    (fun i => q64_most _ (by norm_num) _ _ _ _ _ _ i) (fun i => q64_fin _ _ _ _ _ _ i) (fun i => q64_fin _ _ _ _ _ _ i) (by show 9 ≤ 53; norm_num) min64
    (by rw [n1]; norm_num) (by rw [q64_norm]; norm_num) (s := 1) (ω := 1 / 10 ^ 9) (by norm_num)
    (by rw [q64_vals, q64_vals]; simp [Spec.gram, Fin.sum_univ_three])
    (by norm_num) (by show 256 * (2 : ℝ)⁻¹ ^ 53 ≤ _; norm_num) (by norm_num) (emin64_mul' (by norm_num)) emin64_root (nzIe (by norm_num)) rfl rfl
  have hE : ∀ {c : ℝ}, c ^ 2 ≤ 9 → 2 * (2 : ℝ)⁻¹ ^ double64.prec * (Spec.norm (![0, 0, 0] : Vec ℝ 3) + Spec.norm (![7, 1, c] : Vec ℝ 3))
      + 290 * ((2 : ℝ)⁻¹ ^ double64.prec / 1 ^ 2 * (Spec.dist (![0, 0, 0] : Vec ℝ 3) ![7, 1, c] / 1)) + 92 * (1 / 10 ^ 9) ≤ 1 / 10 ^ 6 := by
    intro c hc
    have k1 : Spec.norm (![7, 1, c] : Vec ℝ 3) ≤ 8 := norm3_le (by norm_num) (by linarith)
    have k2 : Spec.dist (![0, 0, 0] : Vec ℝ 3) ![7, 1, c] ≤ 8 := dist3_le (by norm_num) (by linarith)
    have k3 : Spec.norm (![0, 0, 0] : Vec ℝ 3) = 0 := norm3 _ _ _ 0 le_rfl (by norm_num)
    rw [k3]
    have hu := unit64'
    change (2 : ℝ)⁻¹ ^ double64.prec ≤ _ at hu
    have hu0 : 0 ≤ (2 : ℝ)⁻¹ ^ double64.prec := by positivity
    generalize (2 : ℝ)⁻¹ ^ double64.prec = μ at hu hu0 ⊢
    have k4 := mul_le_mul hu k1 (norm_nonneg' _) (by norm_num)
    have k5 := mul_le_mul hu k2 (dist_nonneg' _ _) (by norm_num)
    norm_num at k4 k5 ⊢
    linarith
  constructor
  · obtain ⟨P, Q, ⟨t, hP⟩, ⟨s, hQ⟩, -, -, -, h⟩ := key 3 (by norm_num)
    refine h (1 / 10 ^ 6) (fun a x ha hx => dec_false ?_) ?_
    · rintro ⟨y, hy, hle⟩
      cases ha.symm.trans hy
      linarith
    have h3 : 3 ≤ Spec.dist P Q := by
      unfold Spec.dist
      refine Real.le_sqrt_of_sq_le ?_
      rw [q64_vals, q64_vals] at hP hQ
      rw [Fin.sum_univ_three, hP, hQ]
      simp [Spec.pointAt]
      have k1 := sq_nonneg (t - 7 : ℝ)
      have k2 := sq_nonneg (-s + -1 : ℝ)
      linarith
    refine lt_of_lt_of_le ?_ h3
    rw [q64_vals, q64_vals]
    have := hE (c := 3) (by norm_num)
    norm_num at this ⊢
    linarith
  · obtain ⟨P, Q, hP, hQ, hd, -, h, -⟩ := key 0 (by norm_num)
    have h0 : Spec.dist P Q ≤ 0 := by
      refine (hd.2 ⟨![7, 0, 0], ⟨7, ?_⟩, ![7, 0, 0], ⟨-1, ?_⟩, rfl⟩).trans (le_of_eq ?_)
      · rw [q64_vals, q64_vals]; funext i; fin_cases i <;> simp [Spec.pointAt]
      · rw [q64_vals, q64_vals]; funext i; fin_cases i <;> simp [Spec.pointAt]
      · exact dist3 _ _ _ _ _ _ 0 le_rfl (by norm_num)
    refine Option.ne_none_iff_exists'.1 (h (1 / 10 ^ 6) (fun a x ha hx => dec_true ⟨x, ha, hx⟩) ?_)
    rw [q64_vals, q64_vals]
    have := hE (c := 0) (by norm_num)
    norm_num at this ⊢
    linarith

/-- The refutation applies to the tolerance of the examples. -/
example : ∃ m n : Ieee double64, m.val? = some (2 ^ 1023) ∧ n.val? = some (-2 ^ 1023) ∧
    ∀ q, intersectPlaneRay ⟨![0, 0, m], ![0, 0, 1]⟩ ⟨![0, 0, n], ![0, 0, 1]⟩ = some q → ∀ i, (q i).val? = none := by
  obtain ⟨m, n, M, rfl, h1, h2, -, h3, -⟩ := C154_counterexample (F := double64) Tol.eps
  exact ⟨m, n, h1, h2, h3⟩
end Examples
end Verif
