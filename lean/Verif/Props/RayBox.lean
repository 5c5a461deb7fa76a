import Verif.Proofs.RayBox
import Verif.Proofs.TolExample
import Verif.Proofs.Vec
import Verif.Spec.Shapes

/-
Properties C16–C18 and C101: rays and axis-aligned boxes.
-/
namespace Verif
set_option linter.unusedSectionVars false

section
variable {K : Type*} [Field K] [LinearOrder K] [IsStrictOrderedRing K] [Tol K] [LawfulTol K] [HasLimits K]

/-- A direction along which the axis tests are exact: every component is zero or clearly larger than the tolerance. -/
def AxesClear (d : Vec K 3) : Prop := ∀ i, d i = 0 ∨ eps < |d i|

theorem unit_abs_le {d : Vec K 3} (hu : ∑ i, d i ^ 2 = 1) (i : Fin 3) : |d i| ≤ 1 := by
  have h : d i ^ 2 ≤ 1 := by
    rw [← hu]; exact Finset.single_le_sum (f := fun i => d i ^ 2) (fun j _ => sq_nonneg (d j)) (Finset.mem_univ i)
  exact abs_le_one_iff_mul_self_le_one.2 (by rw [← sq]; exact h)

theorem unit_clear {d : Vec K 3} (hu : ∑ i, d i ^ 2 = 1) (hc : AxesClear d) : ∃ i, isZero (d i) = false := by
  by_contra h
  have h : ∀ i, d i = 0 := by
    intro i
    rcases hc i with h0 | h0
    · exact h0
    · exact absurd ⟨i, isZero_false h0⟩ h
  simp [h] at hu

theorem unit_some {d : Vec K 3} (hu : ∑ i, d i ^ 2 = 1) (he : (eps : K) < 1 / 2) : ∃ i, isZero (d i) = false := by
  by_contra h
  have hep := eps_pos (K := K)
  have h : ∀ i, d i ^ 2 < 1 / 4 := by
    intro i
    have : isZero (d i) = true := by by_contra hc; exact h ⟨i, by simpa using hc⟩
    have := of_isZero this
    rw [← sq_abs]; nlinarith [abs_nonneg (d i)]
  rw [Fin.sum_univ_three] at hu
  linarith [h 0, h 1, h 2]

theorem clear_zero {d : Vec K 3} (hc : AxesClear d) {i : Fin 3} (h : isZero (d i) = true) : d i = 0 := by
  rcases hc i with h0 | h0
  · exact h0
  · rw [isZero_false h0] at h; cases h

/-- reading the test -/
theorem ray_box_true {o d lo hi : Vec K 3} (hne : ∃ i, isZero (d i) = false)
    (hlim : HasLimits.lowest + eps < (HasLimits.maxVal : K)) (h : isIntersectingRayBox ⟨o, d⟩ ⟨lo, hi⟩ = true) :
    (∀ i, isZero (d i) = true → lo i - eps ≤ o i ∧ o i ≤ hi i + eps) ∧
    ∃ t, 0 ≤ t ∧ ∀ i, isZero (d i) = false →
      slabIn (o i) (d i) (lo i) (hi i) - eps ≤ t ∧ t ≤ slabOut (o i) (d i) (lo i) (hi i) + eps := by
  unfold isIntersectingRayBox at h
  rcases interval_cases o d lo hi hne with ⟨hint, -⟩ | ⟨te, tx, hint, hpar, hb, -, -⟩
  · rw [hint] at h
    simp only [Ext.isLessEq, Ext.isGreaterEq, Bool.and_eq_true, isLessEq_eq, Bool.not_eq_true'] at h
    rw [isLess_true hlim] at h; cases h.1
  · rw [hint] at h
    simp only [Ext.isLessEq, Ext.isGreaterEq, Bool.and_eq_true, isLessEq_eq, isGreaterEq_eq, Bool.not_eq_true'] at h
    have h1 := of_not_isLess h.1
    have h2 := of_not_isLess h.2
    refine ⟨fun i hz => ?_, max tx 0, le_max_right _ _, fun i hz => ?_⟩
    · have := hpar i hz
      exact ⟨by linarith [of_not_isLess this.1], of_not_isLess this.2⟩
    · have := hb i hz
      constructor
      · exact le_trans (by linarith) (le_max_left tx 0)
      · exact max_le (by linarith [eps_pos (K := K)]) (by linarith)

/-- C16 for directions without nearly parallel components: a point of the ray lies in the box enlarged by `eps`.
Missing: directions with a component that is non-zero but within the tolerance (`C16_counterexample`). -/
theorem C16_partial (o d lo hi : Vec K 3) (hu : ∑ i, d i ^ 2 = 1) (hc : AxesClear d) (hbox : ∀ i, lo i ≤ hi i)
    (hlim : HasLimits.lowest + eps < (HasLimits.maxVal : K)) (h : isIntersectingRayBox ⟨o, d⟩ ⟨lo, hi⟩ = true) :
    ∃ t, 0 ≤ t ∧ Spec.inBox lo hi eps (Spec.pointAt o d t) := by
  have hep := eps_pos (K := K)
  obtain ⟨hpar, t, ht0, ht⟩ := ray_box_true (unit_clear hu hc) hlim h
  refine ⟨t, ht0, fun i => ?_⟩
  rcases hz : isZero (d i) with _ | _
  · have h1 := (slab_iff (ne_zero_of_not_isZero hz) (hbox i) eps t).1 (ht i hz)
    have h2 := mul_le_mul_of_nonneg_left (unit_abs_le hu i) hep.le
    exact ⟨by unfold Spec.pointAt; linarith, by unfold Spec.pointAt; linarith⟩
  · have := hpar i hz
    simp only [Spec.pointAt, Spec.inInterval, clear_zero hc hz, mul_zero, add_zero]
    exact this

/-- C16 for every unit direction: the point of the ray is in the box enlarged by `eps` times (1 + its distance from the
origin of the ray). -/
theorem C16_slack_partial (o d lo hi : Vec K 3) (hu : ∑ i, d i ^ 2 = 1) (he : (eps : K) < 1 / 2) (hbox : ∀ i, lo i ≤ hi i)
    (hlim : HasLimits.lowest + eps < (HasLimits.maxVal : K)) (h : isIntersectingRayBox ⟨o, d⟩ ⟨lo, hi⟩ = true) :
    ∃ t, 0 ≤ t ∧ Spec.inBox lo hi (eps * (1 + t)) (Spec.pointAt o d t) := by
  have hep := eps_pos (K := K)
  obtain ⟨hpar, t, ht0, ht⟩ := ray_box_true (unit_some hu he) hlim h
  refine ⟨t, ht0, fun i => ?_⟩
  have het : 0 ≤ eps * t := by positivity
  rcases hz : isZero (d i) with _ | _
  · have h1 := (slab_iff (ne_zero_of_not_isZero hz) (hbox i) eps t).1 (ht i hz)
    have h2 := mul_le_mul_of_nonneg_left (unit_abs_le hu i) hep.le
    exact ⟨by unfold Spec.pointAt; linarith, by unfold Spec.pointAt; linarith⟩
  · have h1 := hpar i hz
    have h2 := of_isZero hz
    have h3 : |t * d i| ≤ eps * t := by rw [abs_mul, abs_of_nonneg ht0, mul_comm]; exact mul_le_mul_of_nonneg_right h2 ht0
    have := abs_le.1 h3
    exact ⟨by unfold Spec.pointAt; linarith, by unfold Spec.pointAt; linarith⟩

/-- C17: if a point of the ray lies in the box, the test says so. -/
theorem C17_no_false_negative (o d lo hi : Vec K 3) (hu : ∑ i, d i ^ 2 = 1) (hc : AxesClear d) (hbox : ∀ i, lo i ≤ hi i)
    (t : K) (ht : 0 ≤ t) (hin : Spec.inBox lo hi 0 (Spec.pointAt o d t)) :
    isIntersectingRayBox ⟨o, d⟩ ⟨lo, hi⟩ = true := by
  have hep := eps_pos (K := K)
  unfold isIntersectingRayBox
  rcases interval_cases o d lo hi (unit_clear hu hc) with ⟨-, i, hz, hout⟩ | ⟨te, tx, hint, -, -, ⟨a, ha, rfl⟩, b, hb, rfl⟩
  · have h1 := hin i
    simp only [Spec.pointAt, Spec.inInterval, clear_zero hc hz, mul_zero, add_zero, sub_zero] at h1
    rcases hout with h | h
    · linarith [of_isLess h]
    · linarith [of_isLess h]
  · have h1 := (slab_iff (ne_zero_of_not_isZero ha) (hbox a) 0 t).2 (by simpa [Spec.inInterval, Spec.pointAt] using hin a)
    have h2 := (slab_iff (ne_zero_of_not_isZero hb) (hbox b) 0 t).2 (by simpa [Spec.inInterval, Spec.pointAt] using hin b)
    rw [hint]
    simp only [Ext.isLessEq, Ext.isGreaterEq, isLessEq_eq, isGreaterEq_eq]
    rw [not_isLess (by linarith), not_isLess (by linarith)]; rfl

/-- The parameters at which the line is inside the box, read off the computed interval. -/
theorem chord_iff {o d lo hi : Vec K 3} (hc : AxesClear d) (hbox : ∀ i, lo i ≤ hi i) {te tx : K}
    (hb : ∀ i, isZero (d i) = false → slabIn (o i) (d i) (lo i) (hi i) ≤ te ∧ tx ≤ slabOut (o i) (d i) (lo i) (hi i))
    (ha : ∃ i, isZero (d i) = false ∧ te = slabIn (o i) (d i) (lo i) (hi i))
    (hx : ∃ i, isZero (d i) = false ∧ tx = slabOut (o i) (d i) (lo i) (hi i)) (e : K)
    (hpar : ∀ i, isZero (d i) = true → Spec.inInterval (lo i) (hi i) e (o i)) (he : 0 ≤ e) (t : K) :
    (te ≤ t ∧ t ≤ tx → Spec.inBox lo hi e (Spec.pointAt o d t)) ∧ (Spec.inBox lo hi 0 (Spec.pointAt o d t) → te ≤ t ∧ t ≤ tx) := by
  constructor
  · rintro ⟨h1, h2⟩ i
    rcases hz : isZero (d i) with _ | _
    · have hbi := hb i hz
      have := (slab_iff (ne_zero_of_not_isZero hz) (hbox i) 0 t).1 ⟨by linarith, by linarith⟩
      exact ⟨by unfold Spec.pointAt; linarith, by unfold Spec.pointAt; linarith⟩
    · have := hpar i hz
      simp only [Spec.pointAt, clear_zero hc hz, mul_zero, add_zero]; exact this
  · intro hin
    obtain ⟨a, ha, rfl⟩ := ha
    obtain ⟨b, hzb, rfl⟩ := hx
    have h1 := (slab_iff (ne_zero_of_not_isZero ha) (hbox a) 0 t).2 (by simpa [Spec.inInterval, Spec.pointAt] using hin a)
    have h2 := (slab_iff (ne_zero_of_not_isZero hzb) (hbox b) 0 t).2 (by simpa [Spec.inInterval, Spec.pointAt] using hin b)
    constructor <;> linarith

/-- evaluation of `intersect` on a finite interval -/
theorem intersectRayBox_eval (dbg : Bool) {o d lo hi : Vec K 3} {te tx : K}
    (hint : aabbRayInterval ⟨o, d⟩ ⟨lo, hi⟩ = (.fin te, .fin tx)) :
    intersectRayBox dbg ⟨o, d⟩ ⟨lo, hi⟩ = .ok
      (if isLess te tx then
        ⟨if isLess te 0 then none else some (Spec.pointAt o d te), if isLess tx 0 then none else some (Spec.pointAt o d tx)⟩
      else {}) := by
  have hpt : ∀ t : K, vadd o (vscale d t) = Spec.pointAt o d t := by
    intro t; rw [vadd_eq, vscale_eq, pointAt_eq]
  unfold intersectRayBox ordinateToPoint
  rw [hint]
  simp only [Ext.isGreaterEq, isGreaterEq_eq, hpt]
  rcases h0 : isLess te tx with _ | _ <;> rcases h1 : isLess te 0 with _ | _ <;> rcases h2 : isLess tx 0 with _ | _ <;>
    simp [geoAssert_true] <;> rfl

/-- C18, reading the answer: the call never fails; a reported enter (exit) point lies on the ray up to `eps`, in the box
enlarged by `eps` and on a face of the box, no point of the ray before (after) it is in the box, and everything between
the two is in the box enlarged by `eps`. -/
theorem C18_reported (dbg : Bool) (o d lo hi : Vec K 3) (hu : ∑ i, d i ^ 2 = 1) (hc : AxesClear d) (hbox : ∀ i, lo i ≤ hi i)
    (hlim : HasLimits.lowest + eps < (HasLimits.maxVal : K)) :
    ∃ r te tx, intersectRayBox dbg ⟨o, d⟩ ⟨lo, hi⟩ = .ok r ∧
      (∀ p, r.enter = some p → -eps ≤ te ∧ p = Spec.pointAt o d te ∧ ∃ i, p i = lo i ∨ p i = hi i) ∧
      (∀ p, r.exit = some p → -eps ≤ tx ∧ p = Spec.pointAt o d tx ∧ ∃ i, p i = lo i ∨ p i = hi i) ∧
      (r.enter ≠ none ∨ r.exit ≠ none → te + eps ≤ tx ∧
        (∀ t, te ≤ t → t ≤ tx → Spec.inBox lo hi eps (Spec.pointAt o d t)) ∧
        ∀ t, Spec.inBox lo hi 0 (Spec.pointAt o d t) → te ≤ t ∧ t ≤ tx) := by
  have hep := eps_pos (K := K)
  rcases interval_cases o d lo hi (unit_clear hu hc) with ⟨hint, -⟩ | ⟨te, tx, hint, hpar, hb, ha, hx⟩
  · refine ⟨_, 0, 0, intersectRayBox_eval dbg hint, ?_⟩
    rw [not_isLess (by linarith)]
    simp
  · refine ⟨_, te, tx, intersectRayBox_eval dbg hint, ?_⟩
    rcases h0 : isLess te tx with _ | _
    · simp
    · simp only [if_true]
      refine ⟨?_, ?_, fun _ => ⟨of_isLess h0, fun t h1 h2 => ?_, fun t h => ?_⟩⟩
      · intro p hp
        split at hp
        · cases hp
        · rename_i h1; cases hp
          refine ⟨by linarith [of_not_isLess (eq_false_of_ne_true h1)], rfl, ?_⟩
          obtain ⟨i, hz, rfl⟩ := ha
          exact ⟨i, slabIn_face (ne_zero_of_not_isZero hz)⟩
      · intro p hp
        split at hp
        · cases hp
        · rename_i h1; cases hp
          refine ⟨by linarith [of_not_isLess (eq_false_of_ne_true h1)], rfl, ?_⟩
          obtain ⟨i, hz, rfl⟩ := hx
          exact ⟨i, slabOut_face (ne_zero_of_not_isZero hz)⟩
      · refine (chord_iff hc hbox hb ha hx eps (fun i hz => ?_) hep.le t).1 ⟨h1, h2⟩
        have := hpar i hz
        exact ⟨by linarith [of_not_isLess this.1], of_not_isLess this.2⟩
      · refine (chord_iff hc hbox hb ha hx eps (fun i hz => ?_) hep.le t).2 h
        have := hpar i hz
        exact ⟨by linarith [of_not_isLess this.1], of_not_isLess this.2⟩

/-- C18, a ray that runs through the box over a length larger than `eps`: the exit point is reported, the enter point is
reported if the origin is outside the box and not reported if the origin is inside by more than `eps`, and the two are
exactly the ends of the part of the line inside the box. -/
theorem C18_chord (dbg : Bool) (o d lo hi : Vec K 3) (hu : ∑ i, d i ^ 2 = 1) (hc : AxesClear d) (hbox : ∀ i, lo i ≤ hi i)
    (s t : K) (ht : 0 ≤ t) (hlen : s + eps < t)
    (hs : Spec.inBox lo hi 0 (Spec.pointAt o d s)) (hin : Spec.inBox lo hi 0 (Spec.pointAt o d t)) :
    ∃ r te tx, intersectRayBox dbg ⟨o, d⟩ ⟨lo, hi⟩ = .ok r ∧
      (∀ u, Spec.inBox lo hi 0 (Spec.pointAt o d u) ↔ te ≤ u ∧ u ≤ tx) ∧
      r.exit = some (Spec.pointAt o d tx) ∧
      (r.enter = none ∨ r.enter = some (Spec.pointAt o d te)) ∧
      (¬ Spec.inBox lo hi 0 o → r.enter = some (Spec.pointAt o d te)) ∧
      ((∀ i, lo i + eps < o i ∧ o i < hi i - eps) → r.enter = none) := by
  have hep := eps_pos (K := K)
  rcases interval_cases o d lo hi (unit_clear hu hc) with ⟨-, i, hz, hout⟩ | ⟨te, tx, hint, -, hb, ha, hx⟩
  · have h1 := hin i
    simp only [Spec.pointAt, Spec.inInterval, clear_zero hc hz, mul_zero, add_zero, sub_zero] at h1
    rcases hout with h | h
    · linarith [of_isLess h]
    · linarith [of_isLess h]
  · have hpar : ∀ i, isZero (d i) = true → Spec.inInterval (lo i) (hi i) 0 (o i) := by
      intro i hz
      have h1 := hin i
      simpa [Spec.pointAt, clear_zero hc hz] using h1
    have hiff : ∀ u, Spec.inBox lo hi 0 (Spec.pointAt o d u) ↔ te ≤ u ∧ u ≤ tx := fun u =>
      ⟨(chord_iff hc hbox hb ha hx 0 hpar le_rfl u).2, (chord_iff hc hbox hb ha hx 0 hpar le_rfl u).1⟩
    have hs' := (hiff s).1 hs
    have ht' := (hiff t).1 hin
    have h0 : Spec.pointAt o d 0 = o := by funext i; simp [Spec.pointAt]
    refine ⟨_, te, tx, intersectRayBox_eval dbg hint, hiff, ?_⟩
    rw [isLess_true (by linarith)]
    simp only [if_true]
    rw [not_isLess (a := tx) (by linarith)]
    refine ⟨by simp, ?_, ?_, ?_⟩
    · split <;> simp
    · intro hno
      rw [← h0, hiff] at hno
      have : 0 < te := by by_contra hcon; exact hno ⟨by linarith, by linarith⟩
      rw [not_isLess (by linarith)]; simp
    · intro hcl
      have h0in : Spec.inBox lo hi 0 (Spec.pointAt o d 0) := by
        rw [h0]; intro i; have := hcl i; exact ⟨by linarith, by linarith⟩
      have hte := ((hiff 0).1 h0in).1
      rw [isLess_true, if_pos rfl]
      by_contra hcon
      obtain ⟨i, hz, hti⟩ := ha
      have hface := slabIn_face (o := o i) (lo := lo i) (hi := hi i) (ne_zero_of_not_isZero hz)
      rw [← hti] at hface
      have h3 : |te * d i| ≤ eps := by
        rw [abs_mul, abs_of_nonpos hte]
        calc -te * |d i| ≤ -te * 1 := mul_le_mul_of_nonneg_left (unit_abs_le hu i) (by linarith)
          _ ≤ eps := by linarith
      have := abs_le.1 h3
      have := hcl i
      rcases hface with h | h <;> linarith

/-- C101, what holds: the two functions are called on the same ray and box.  An enter point is never reported without an exit point; whenever
a point is reported the test says yes; and if the test says yes and the line is inside the box over a length larger than `eps` an exit
point is reported.  Missing: shorter contacts, `C101_counterexample`. -/
theorem C101_partial (dbg : Bool) (o d lo hi : Vec K 3) (hu : ∑ i, d i ^ 2 = 1) (he : (eps : K) < 1 / 2)
    (hlim : HasLimits.lowest + eps < (HasLimits.maxVal : K)) :
    ∃ r, intersectRayBox dbg ⟨o, d⟩ ⟨lo, hi⟩ = .ok r ∧ (r.enter ≠ none → r.exit ≠ none) ∧
      (r.exit ≠ none → isIntersectingRayBox ⟨o, d⟩ ⟨lo, hi⟩ = true) ∧
      (AxesClear d → (∀ i, lo i ≤ hi i) → (∃ s t, s + eps < t ∧ Spec.inBox lo hi 0 (Spec.pointAt o d s) ∧
          Spec.inBox lo hi 0 (Spec.pointAt o d t)) →
        isIntersectingRayBox ⟨o, d⟩ ⟨lo, hi⟩ = true → r.exit ≠ none) := by
  have hep := eps_pos (K := K)
  unfold isIntersectingRayBox
  rcases interval_cases o d lo hi (unit_some hu he) with ⟨hint, i, hz, hout⟩ | ⟨te, tx, hint, hpar, hb, ha, hx⟩
  · refine ⟨_, intersectRayBox_eval dbg hint, ?_⟩
    rw [not_isLess (by linarith), hint]
    simp only [Ext.isLessEq, isLessEq_eq, isLess_true hlim]
    simp
  · refine ⟨_, intersectRayBox_eval dbg hint, ?_⟩
    rw [hint]
    simp only [Ext.isLessEq, Ext.isGreaterEq, isLessEq_eq, isGreaterEq_eq]
    rcases h0 : isLess te tx with _ | _
    · refine ⟨by simp, by simp, fun hc hbox ⟨s, t, hst, hs, ht⟩ _ => ?_⟩
      exfalso
      obtain ⟨a, hza, rfl⟩ := ha
      obtain ⟨b, hzb, rfl⟩ := hx
      have h1 := ((slab_iff (ne_zero_of_not_isZero hza) (hbox a) 0 s).2 (by simpa [Spec.inInterval, Spec.pointAt] using hs a)).1
      have h2 := ((slab_iff (ne_zero_of_not_isZero hzb) (hbox b) 0 t).2 (by simpa [Spec.inInterval, Spec.pointAt] using ht b)).2
      rw [isLess_true (by linarith)] at h0
      cases h0
    · have h1 := of_isLess h0
      refine ⟨fun h => ?_, fun h => ?_, fun _ _ _ h => ?_⟩
      · rcases h2 : isLess te 0 with _ | _
        · have := of_not_isLess h2
          simp [not_isLess_of_le (show (0 : K) ≤ tx by linarith)]
        · simp [h2] at h
      · rcases h2 : isLess tx 0 with _ | _
        · rw [not_isLess_of_le (show te ≤ tx by linarith)]; rfl
        · simp [h2] at h
      · rw [Bool.and_eq_true, Bool.not_eq_true', Bool.not_eq_true'] at h
        simp [h.2]

/-- C101 for flat boxes (the box of a triangle parallel to a coordinate plane): `intersect` never reports anything for a ray that crosses
the box. -/
theorem C101_flat (dbg : Bool) (o d lo hi : Vec K 3) (i : Fin 3) (hflat : lo i = hi i) (hd : eps < |d i|)
    (hlim : HasLimits.lowest + eps < (HasLimits.maxVal : K)) :
    ∃ r, intersectRayBox dbg ⟨o, d⟩ ⟨lo, hi⟩ = .ok r ∧ r.enter = none ∧ r.exit = none := by
  have hep := eps_pos (K := K)
  rcases interval_cases o d lo hi ⟨i, isZero_false hd⟩ with ⟨hint, -⟩ | ⟨te, tx, hint, -, hb, -, -⟩
  · refine ⟨_, intersectRayBox_eval dbg hint, ?_⟩
    rw [not_isLess (by linarith)]
    simp
  · refine ⟨_, intersectRayBox_eval dbg hint, ?_⟩
    have := hb i (isZero_false hd)
    simp only [slabIn, slabOut, hflat, min_self, max_self] at this
    rw [not_isLess (by linarith)]
    simp

/-- C101 is false: a ray through the middle of a flat box; the test says yes, `intersect` reports nothing. -/
theorem C101_counterexample (he : (eps : K) < 1) (hlim : HasLimits.lowest + eps < (HasLimits.maxVal : K)) (dbg : Bool) :
    ∃ o d lo hi : Vec K 3, ∑ i, d i ^ 2 = 1 ∧ (∀ i, lo i ≤ hi i) ∧ (∃ t, 0 ≤ t ∧ Spec.inBox lo hi 0 (Spec.pointAt o d t)) ∧
      isIntersectingRayBox ⟨o, d⟩ ⟨lo, hi⟩ = true ∧
      ∃ r, intersectRayBox dbg ⟨o, d⟩ ⟨lo, hi⟩ = .ok r ∧ r.enter = none ∧ r.exit = none := by
  have hu : ∑ i, (![0, 0, 1] : Vec K 3) i ^ 2 = 1 := by simp [Fin.sum_univ_three]
  have hb : ∀ i, (![-1, -1, 1] : Vec K 3) i ≤ (![1, 1, 1] : Vec K 3) i := by
    intro i
    have h : (-1 : K) ≤ 1 := by linarith [zero_lt_one (α := K)]
    fin_cases i <;> simp [h]
  have hin : Spec.inBox (![-1, -1, 1] : Vec K 3) ![1, 1, 1] 0 (Spec.pointAt ![0, 0, 0] ![0, 0, 1] 1) := by
    intro i; fin_cases i <;> simp [Spec.inInterval, Spec.pointAt]
  have hc : AxesClear (![0, 0, 1] : Vec K 3) := by
    intro i; fin_cases i <;> simp [he]
  exact ⟨![0, 0, 0], ![0, 0, 1], ![-1, -1, 1], ![1, 1, 1], hu, hb, ⟨1, zero_le_one, hin⟩,
    C17_no_false_negative _ _ _ _ hu hc hb 1 zero_le_one hin, C101_flat dbg _ _ _ _ 2 (by simp) (by simp [he]) hlim⟩
end

section
variable [Tol ℝ] [LawfulTol ℝ] [HasLimits ℝ]

/-- C16 is false for a direction with a component within the tolerance: the test reports a hit although the ray stays
more than 1 away from the box. -/
theorem C16_counterexample (he : (eps : ℝ) < 1 / 2) :
    ∃ o d lo hi : Vec ℝ 3, ∑ i, d i ^ 2 = 1 ∧ (∀ i, lo i + 1 ≤ hi i) ∧ isIntersectingRayBox ⟨o, d⟩ ⟨lo, hi⟩ = true ∧
      ∀ t, 0 ≤ t → ¬ Spec.inBox lo hi 1 (Spec.pointAt o d t) := by
  have hep := eps_pos (K := ℝ)
  set s : ℝ := eps / 2 with hs
  have hs0 : 0 < s := by positivity
  have hs1 : s < 1 / 4 := by linarith
  have hc2 : 0 ≤ 1 - s ^ 2 := by nlinarith
  set c : ℝ := Real.sqrt (1 - s ^ 2) with hc
  have hcsq : c ^ 2 = 1 - s ^ 2 := Real.sq_sqrt hc2
  have hc1 : c ≤ 1 := by
    by_contra h; nlinarith [sq_nonneg s]
  have hclow : 1 / 2 < c := by
    apply Real.lt_sqrt_of_sq_lt; nlinarith
  set L : ℝ := 5 / s with hL
  have hLs : L * s = 5 := by rw [hL]; field_simp
  have hL1 : 1 < L := by by_contra h; nlinarith
  refine ⟨![0, 1 / 2, 1 / 2], ![c, -s, 0], ![L, 0, 0], ![L + 1, 1, 1], ?_, ?_, ?_, ?_⟩
  · simp [Fin.sum_univ_three, hcsq]
  · intro i; fin_cases i <;> simp
  · have z0 : isZero ((![c, -s, 0] : Vec ℝ 3) 0) = false := isZero_false (by simp; rw [abs_of_pos] <;> linarith)
    have z1 : isZero ((![c, -s, 0] : Vec ℝ 3) 1) = true := isZero_true (by simp; rw [abs_of_pos] <;> linarith)
    have z2 : isZero ((![c, -s, 0] : Vec ℝ 3) 2) = true := isZero_true (by simp; linarith)
    unfold isIntersectingRayBox
    rcases interval_cases ![0, 1 / 2, 1 / 2] ![c, -s, 0] ![L, 0, 0] ![L + 1, 1, 1] ⟨0, z0⟩ with
      ⟨-, i, hz, hout⟩ | ⟨te, tx, hint, -, -, ⟨a, ha, rfl⟩, b, hb, rfl⟩
    · have h3 : ∀ x : ℝ, isLess x 0 = true → x < 0 := fun x h => by linarith [of_isLess h]
      fin_cases i
      · simp only [Fin.zero_eta] at hz; rw [z0] at hz; cases hz
      · simp at hout; rcases hout with h | h <;> have := of_isLess h <;> norm_num at this <;> linarith
      · simp at hout; rcases hout with h | h <;> have := of_isLess h <;> norm_num at this <;> linarith
    · have ha0 : a = 0 := by
        fin_cases a
        · rfl
        · simp only [Fin.mk_one] at ha; rw [z1] at ha; cases ha
        · simp only [Fin.reduceFinMk] at ha; rw [z2] at ha; cases ha
      have hb0 : b = 0 := by
        fin_cases b
        · rfl
        · simp only [Fin.mk_one] at hb; rw [z1] at hb; cases hb
        · simp only [Fin.reduceFinMk] at hb; rw [z2] at hb; cases hb
      subst ha0; subst hb0
      rw [hint]
      simp only [Ext.isLessEq, Ext.isGreaterEq, isLessEq_eq, isGreaterEq_eq]
      have hout0 : 0 ≤ slabOut ((![0, 1 / 2, 1 / 2] : Vec ℝ 3) 0) ((![c, -s, 0] : Vec ℝ 3) 0) ((![L, 0, 0] : Vec ℝ 3) 0)
          ((![L + 1, 1, 1] : Vec ℝ 3) 0) := by
        refine le_trans ?_ (le_max_left _ _)
        simp; positivity
      rw [not_isLess_of_le (slab_le _ _ _ _), not_isLess_of_le hout0]; rfl
  · intro t ht hin
    have h0 := (hin 0).1
    have h1 := (hin 1).1
    simp [Spec.pointAt] at h0 h1
    have ht2 : L - 1 ≤ t := by nlinarith
    nlinarith

end

section Examples
attribute [local instance] ratTol ratTol_lawful
local instance : HasLimits ℚ := ⟨10 ^ 9, -10 ^ 9⟩

/-- A ray along a 3-4-5 direction through a box, from outside and from inside. -/
example : isIntersectingRayBox (T := ℚ) ⟨![0, 0, 1 / 2], ![3 / 5, 4 / 5, 0]⟩ ⟨![3, 3, 0], ![6, 6, 1]⟩ = true := by decide +kernel
example : isIntersectingRayBox (T := ℚ) ⟨![0, 0, 1 / 2], ![-3 / 5, 4 / 5, 0]⟩ ⟨![3, 3, 0], ![6, 6, 1]⟩ = false := by decide +kernel
example : AxesClear (![3 / 5, 4 / 5, 0] : Vec ℚ 3) ∧ ∑ i, (![3 / 5, 4 / 5, 0] : Vec ℚ 3) i ^ 2 = 1 := by
  refine ⟨fun i => ?_, by simp [Fin.sum_univ_three]; norm_num⟩
  fin_cases i
  · right; show (1 / 1000 : ℚ) < |3 / 5|; norm_num
  · right; show (1 / 1000 : ℚ) < |4 / 5|; norm_num
  · left; rfl
/-- the parameters 5 and 7 lie in the box: a chord longer than the tolerance -/
example : Spec.inBox (![3, 3, 0] : Vec ℚ 3) ![6, 6, 1] 0 (Spec.pointAt ![0, 0, 1 / 2] ![3 / 5, 4 / 5, 0] 5) ∧
    Spec.inBox (![3, 3, 0] : Vec ℚ 3) ![6, 6, 1] 0 (Spec.pointAt ![0, 0, 1 / 2] ![3 / 5, 4 / 5, 0] 7) := by
  constructor <;> intro i <;> fin_cases i <;> simp [Spec.inInterval, Spec.pointAt] <;> norm_num
/-- C101 on the same ray: test and intersection agree; on a flat box they do not. -/
example : ((intersectRayBox (T := ℚ) true ⟨![0, 0, 1 / 2], ![3 / 5, 4 / 5, 0]⟩ ⟨![3, 3, 0], ![6, 6, 1]⟩).toOption.bind (·.exit)).isSome = true := by
  decide +kernel
example : isIntersectingRayBox (T := ℚ) ⟨![0, 0, 1 / 2], ![3 / 5, 4 / 5, 0]⟩ ⟨![3, 3, 0], ![3, 6, 1]⟩ = true ∧
    ((intersectRayBox (T := ℚ) true ⟨![0, 0, 1 / 2], ![3 / 5, 4 / 5, 0]⟩ ⟨![3, 3, 0], ![3, 6, 1]⟩).toOption.bind (·.exit)).isNone = true := by
  decide +kernel
/-! The theorems applied to this ray, and to a second one that starts inside the box. -/
theorem exDir_unit : ∑ i, (![3 / 5, 4 / 5, 0] : Vec ℚ 3) i ^ 2 = 1 := by simp [Fin.sum_univ_three]; norm_num
theorem exDir_clear : AxesClear (![3 / 5, 4 / 5, 0] : Vec ℚ 3) := fun i => by
  fin_cases i
  · right; show (1 / 1000 : ℚ) < |3 / 5|; norm_num
  · right; show (1 / 1000 : ℚ) < |4 / 5|; norm_num
  · left; rfl
theorem exBox_le : ∀ i, (![3, 3, 0] : Vec ℚ 3) i ≤ (![6, 6, 1] : Vec ℚ 3) i := by intro i; fin_cases i <;> norm_num
theorem exLim : HasLimits.lowest + eps < (HasLimits.maxVal : ℚ) := by
  show (-10 ^ 9 + 1 / 1000 : ℚ) < 10 ^ 9; norm_num
theorem exEps : (eps : ℚ) < 1 / 2 := by show (1 / 1000 : ℚ) < 1 / 2; norm_num
theorem exIn5 : Spec.inBox (![3, 3, 0] : Vec ℚ 3) ![6, 6, 1] 0 (Spec.pointAt ![0, 0, 1 / 2] ![3 / 5, 4 / 5, 0] 5) := by
  intro i; fin_cases i <;> simp [Spec.inInterval, Spec.pointAt] <;> norm_num
theorem exIn7 : Spec.inBox (![3, 3, 0] : Vec ℚ 3) ![6, 6, 1] 0 (Spec.pointAt ![0, 0, 1 / 2] ![3 / 5, 4 / 5, 0] 7) := by
  intro i; fin_cases i <;> simp [Spec.inInterval, Spec.pointAt] <;> norm_num

example : ∃ t, 0 ≤ t ∧ Spec.inBox (![3, 3, 0] : Vec ℚ 3) ![6, 6, 1] eps (Spec.pointAt ![0, 0, 1 / 2] ![3 / 5, 4 / 5, 0] t) :=
  C16_partial _ _ _ _ exDir_unit exDir_clear exBox_le exLim (by decide +kernel)
example : ∃ t, 0 ≤ t ∧ Spec.inBox (![3, 3, 0] : Vec ℚ 3) ![6, 6, 1] (eps * (1 + t)) (Spec.pointAt ![0, 0, 1 / 2] ![3 / 5, 4 / 5, 0] t) :=
  C16_slack_partial _ _ _ _ exDir_unit exEps exBox_le exLim (by decide +kernel)
example : isIntersectingRayBox (T := ℚ) ⟨![0, 0, 1 / 2], ![3 / 5, 4 / 5, 0]⟩ ⟨![3, 3, 0], ![6, 6, 1]⟩ = true :=
  C17_no_false_negative _ _ _ _ exDir_unit exDir_clear exBox_le 5 (by norm_num) exIn5
example : ∃ r, ∃ te tx : ℚ, intersectRayBox true (⟨![0, 0, 1 / 2], ![3 / 5, 4 / 5, 0]⟩ : Ray ℚ 3) ⟨![3, 3, 0], ![6, 6, 1]⟩ = .ok r ∧
    (r.exit ≠ none → te ≤ 5 ∧ 7 ≤ tx) := by
  obtain ⟨r, te, tx, h1, -, -, h2⟩ := C18_reported true (![0, 0, 1 / 2] : Vec ℚ 3) _ _ _ exDir_unit exDir_clear exBox_le exLim
  exact ⟨r, te, tx, h1, fun h => ⟨((h2 (.inr h)).2.2 5 exIn5).1, ((h2 (.inr h)).2.2 7 exIn7).2⟩⟩
/-- The chord from parameter 5 to parameter 7.5. -/
example : ∃ r te tx, intersectRayBox true (⟨![0, 0, 1 / 2], ![3 / 5, 4 / 5, 0]⟩ : Ray ℚ 3) ⟨![3, 3, 0], ![6, 6, 1]⟩ = .ok r ∧
    te ≤ 5 ∧ 7 ≤ tx ∧ r.enter = some (Spec.pointAt ![0, 0, 1 / 2] ![3 / 5, 4 / 5, 0] te) ∧
    r.exit = some (Spec.pointAt ![0, 0, 1 / 2] ![3 / 5, 4 / 5, 0] tx) := by
  obtain ⟨r, te, tx, h1, h2, h3, -, h4, -⟩ := C18_chord true (![0, 0, 1 / 2] : Vec ℚ 3) _ _ _ exDir_unit exDir_clear exBox_le 5 7 (by norm_num)
    (by show (5 + 1 / 1000 : ℚ) < 7; norm_num) exIn5 exIn7
  refine ⟨r, te, tx, h1, ((h2 5).1 exIn5).1, ((h2 7).1 exIn7).2, h4 ?_, h3⟩
  intro h
  have := (h 0).1
  norm_num at this
/-- Starting at (4, 5, 1/2), inside the box, there is no enter point. -/
example : ∃ r, intersectRayBox true (⟨![4, 5, 1 / 2], ![3 / 5, 4 / 5, 0]⟩ : Ray ℚ 3) ⟨![3, 3, 0], ![6, 6, 1]⟩ = .ok r ∧ r.enter = none := by
  obtain ⟨r, te, tx, h1, -, -, -, -, h5⟩ := C18_chord true (![4, 5, 1 / 2] : Vec ℚ 3) _ _ _ exDir_unit exDir_clear exBox_le 0 1 (by norm_num)
    (by show (0 + 1 / 1000 : ℚ) < 1; norm_num)
    (by intro i; fin_cases i <;> simp [Spec.inInterval, Spec.pointAt] <;> norm_num)
    (by intro i; fin_cases i <;> simp [Spec.inInterval, Spec.pointAt] <;> norm_num)
  refine ⟨r, h1, h5 fun i => ?_⟩
  show (![3, 3, 0] : Vec ℚ 3) i + 1 / 1000 < (![4, 5, 1 / 2] : Vec ℚ 3) i ∧ (![4, 5, 1 / 2] : Vec ℚ 3) i < (![6, 6, 1] : Vec ℚ 3) i - 1 / 1000
  fin_cases i <;> norm_num
example := C101_counterexample (K := ℚ) (lt_trans exEps (by norm_num)) exLim true
example : ∃ r, intersectRayBox true (⟨![0, 0, 1 / 2], ![3 / 5, 4 / 5, 0]⟩ : Ray ℚ 3) ⟨![3, 3, 0], ![3, 6, 1]⟩ = .ok r ∧ r.enter = none ∧ r.exit = none :=
  C101_flat true _ _ _ _ 0 rfl (by show (1 / 1000 : ℚ) < |3 / 5|; norm_num) exLim
example : ∃ r, intersectRayBox true (⟨![0, 0, 1 / 2], ![3 / 5, 4 / 5, 0]⟩ : Ray ℚ 3) ⟨![3, 3, 0], ![6, 6, 1]⟩ = .ok r ∧ r.exit ≠ none := by
  obtain ⟨r, h1, -, -, h2⟩ := C101_partial true (![0, 0, 1 / 2] : Vec ℚ 3) (![3 / 5, 4 / 5, 0]) ![3, 3, 0] ![6, 6, 1] exDir_unit exEps exLim
  exact ⟨r, h1, h2 exDir_clear exBox_le ⟨5, 7, by show (5 + 1 / 1000 : ℚ) < 7; norm_num, exIn5, exIn7⟩ (by decide +kernel)⟩

section
attribute [local instance] realTol realTol_lawful
noncomputable local instance : HasLimits ℝ := ⟨10 ^ 9, -10 ^ 9⟩
example := C16_counterexample (by show (1 / 1000 : ℝ) < 1 / 2; norm_num)
end
end Examples
end Verif
