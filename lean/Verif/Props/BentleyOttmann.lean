import Verif.Model.BentleyOttmann
import Verif.Props.Intersect
import Verif.Proofs.Mesh
import Mathlib.Data.List.Nodup
import Mathlib.Data.List.InsertIdx

set_option linter.unusedSectionVars false

/-
C39, C40, C41: the sweep line.
-/
namespace Verif
open Spec

section
variable {K : Type} [Zero K] [One K] [Add K] [Sub K] [Mul K] [Div K] [Neg K] [DecidableEq K] [Tol K]

/-- The point is what intersecting two different segments of the input gives. -/
def FromPair (dbg : Bool) (segs : List (Segment K 2)) (p : Vec K 2) : Prop :=
  ∃ (i j : Nat) (si sj : Segment K 2), i ≠ j ∧ segs[i]? = some si ∧ segs[j]? = some sj ∧
    intersectSegment2 dbg si sj = .ok (some p)

theorem boReport_gen {dbg : Bool} (hok : ∀ a b : Segment K 2, ∃ r, intersectSegment2 dbg a b = .ok r) (segs : List (Segment K 2)) {i j : Nat} (hi : i < segs.length) (hj : j < segs.length)
    (hij : i ≠ j) (pts : List (Vec K 2)) :
    ∃ r, boReport dbg segs i j pts = .ok r ∧ r.length ≤ pts.length + 1 ∧ ∀ p ∈ r, p ∈ pts ∨ FromPair dbg segs p := by
  unfold boReport
  have h1 : vecGet segs i = .ok segs[i] := vecGet_of_getElem? (List.getElem?_eq_getElem hi)
  have h2 : vecGet segs j = .ok segs[j] := vecGet_of_getElem? (List.getElem?_eq_getElem hj)
  obtain ⟨r, hr⟩ := hok segs[i] segs[j]
  rw [h1, ok_bind, h2, ok_bind, hr, ok_bind]
  cases r with
  | none => exact ⟨pts, rfl, by omega, fun p hp => .inl hp⟩
  | some q =>
    refine ⟨_, rfl, by simp, ?_⟩
    intro p hp
    rcases List.mem_append.1 hp with hp | hp
    · exact .inl hp
    · obtain rfl := List.mem_singleton.1 hp
      exact .inr ⟨i, j, _, _, hij, List.getElem?_eq_getElem hi, List.getElem?_eq_getElem hj, hr⟩

theorem getElem?_ne {s : List Nat} (hs : s.Nodup) {a b i j : Nat} (hab : a ≠ b) (ha : s[a]? = some i) (hb : s[b]? = some j) :
    i ≠ j := by
  rintro rfl
  obtain ⟨h1, e1⟩ := List.getElem?_eq_some_iff.1 ha
  obtain ⟨h2, e2⟩ := List.getElem?_eq_some_iff.1 hb
  exact hab ((hs.getElem_inj_iff).1 (e1.trans e2.symm))

/-- What is known about the status and the points before and after a round. -/
theorem boStep_gen {dbg : Bool} (hok : ∀ a b : Segment K 2, ∃ r, intersectSegment2 dbg a b = .ok r) (o : StatusSearch) (segs : List (Segment K 2)) (s : List Nat) (pts : List (Vec K 2)) (e : BOEvent K)
    (hn : s.Nodup) (hs : ∀ i ∈ s, i < segs.length) (he : e.segmentId < segs.length)
    (hfresh : e.type = .start → e.segmentId ∉ s) :
    ∃ s' pts', boStep dbg o segs (s, pts) e = .ok (s', pts') ∧ s'.Nodup ∧
      (∀ i ∈ s', i ∈ s ∨ (e.type = .start ∧ i = e.segmentId)) ∧
      pts'.length ≤ pts.length + (if e.type = .start then 2 else 1) ∧
      ∀ p ∈ pts', p ∈ pts ∨ FromPair dbg segs p := by
  unfold boStep
  cases hty : e.type with
  | start =>
    have hfresh := hfresh hty
    obtain ⟨s', pos, hins, hnd, hmem, hpos⟩ : ∃ s' pos, statusInsert o s e.segmentId = (s', pos) ∧ s'.Nodup ∧
        (∀ i ∈ s', i ∈ s ∨ i = e.segmentId) ∧ pos < s'.length := by
      unfold statusInsert
      dsimp only
      split
      · next h =>
        simp only [Bool.and_eq_true, decide_eq_true_eq] at h
        exact ⟨_, _, rfl, hn, fun i hi => .inl hi, h.2⟩
      · refine ⟨_, _, rfl, (List.perm_insertIdx _ _ (Nat.min_le_right _ _)).nodup_iff.2 (List.nodup_cons.2 ⟨hfresh, hn⟩), ?_, ?_⟩
        · intro i hi
          have := (List.perm_insertIdx e.segmentId s (Nat.min_le_right (o.insert s e.segmentId).1 s.length)).mem_iff.1 hi
          rcases List.mem_cons.1 this with h | h
          · exact .inr h
          · exact .inl h
        · rw [List.length_insertIdx, if_pos (Nat.min_le_right _ _)]
          have := Nat.min_le_right (o.insert s e.segmentId).1 s.length
          omega
    have hs' : ∀ i ∈ s', i < segs.length := by
      intro i hi
      rcases hmem i hi with h | rfl
      · exact hs i h
      · exact he
    dsimp only
    rw [hins]
    have hit : vecGet s' pos = .ok s'[pos] := vecGet_of_getElem? (List.getElem?_eq_getElem hpos)
    dsimp only
    rw [hit, ok_bind]
    have h0 : s'[pos]? = some s'[pos] := List.getElem?_eq_getElem hpos
    have hit' := hs' _ (List.getElem_mem hpos)
    obtain ⟨r1, hr1, hl1, hm1⟩ : ∃ r, boReportOpt dbg segs s'[pos] (statusAbove s' pos) pts = .ok r ∧ r.length ≤ pts.length + 1 ∧ ∀ p ∈ r, p ∈ pts ∨ FromPair dbg segs p := by
      cases ha : statusAbove s' pos with
      | none => exact ⟨pts, rfl, by omega, fun p hp => .inl hp⟩
      | some a =>
        unfold statusAbove at ha
        exact boReport_gen hok segs hit' (hs' _ (List.mem_of_getElem? ha)) (getElem?_ne hnd (by omega) h0 ha) pts
    obtain ⟨r2, hr2, hl2, hm2⟩ : ∃ r, boReportOpt dbg segs s'[pos] (statusBelow s' pos) r1 = .ok r ∧ r.length ≤ r1.length + 1 ∧ ∀ p ∈ r, p ∈ r1 ∨ FromPair dbg segs p := by
      cases ha : statusBelow s' pos with
      | none => exact ⟨r1, rfl, by omega, fun p hp => .inl hp⟩
      | some a =>
        unfold statusBelow at ha
        split at ha
        · cases ha
        · exact boReport_gen hok segs hit' (hs' _ (List.mem_of_getElem? ha)) (getElem?_ne hnd (by omega) h0 ha) r1
    rw [hr1, ok_bind, hr2, ok_bind]
    refine ⟨s', r2, rfl, hnd, fun i hi => (hmem i hi).imp id (⟨rfl, ·⟩), by simp; omega, ?_⟩
    intro p hp
    rcases hm2 p hp with h | h
    · exact hm1 p h
    · exact .inr h
  | stop =>
    dsimp only
    cases hf : statusFind o s e.segmentId with
    | none => exact ⟨s, pts, rfl, hn, fun i hi => .inl hi, by simp, fun p hp => .inl hp⟩
    | some pos =>
      dsimp only
      have hrest : ∀ r : List (Vec K 2), ∀ i ∈ s.eraseIdx pos, i ∈ s ∨ (EventType.stop = .start ∧ i = e.segmentId) :=
        fun _ i hi => .inl (List.mem_of_mem_eraseIdx hi)
      obtain ⟨r, hr, hl, hm⟩ : ∃ r, boReportBoth dbg segs (statusAbove s pos) (statusBelow s pos) pts = .ok r ∧ r.length ≤ pts.length + 1 ∧ ∀ p ∈ r, p ∈ pts ∨ FromPair dbg segs p := by
        cases ha : statusAbove s pos with
        | none => exact ⟨pts, rfl, by omega, fun p hp => .inl hp⟩
        | some a =>
          cases hb : statusBelow s pos with
          | none => exact ⟨pts, rfl, by omega, fun p hp => .inl hp⟩
          | some b =>
            unfold statusAbove at ha
            unfold statusBelow at hb
            split at hb
            · cases hb
            · exact boReport_gen hok segs (hs _ (List.mem_of_getElem? ha)) (hs _ (List.mem_of_getElem? hb))
                (getElem?_ne hn (by omega) ha hb) pts
      rw [hr, ok_bind]
      exact ⟨_, r, rfl, hn.sublist (List.eraseIdx_sublist _ _), hrest r, by simpa using hl, hm⟩

/-- The segments whose start events occur in `es`. -/
def startIds (es : List (BOEvent K)) : List Nat := (es.filter (·.type = .start)).map (·.segmentId)

theorem boLoop_gen {dbg : Bool} (hok : ∀ a b : Segment K 2, ∃ r, intersectSegment2 dbg a b = .ok r) (o : StatusSearch) (segs : List (Segment K 2)) :
    ∀ (es : List (BOEvent K)) (s : List Nat) (pts : List (Vec K 2)), s.Nodup → (∀ i ∈ s, i < segs.length) →
      (∀ e ∈ es, e.segmentId < segs.length) → (startIds es).Nodup → (∀ i ∈ startIds es, i ∉ s) →
      ∃ st, es.foldlM (boStep dbg o segs) (s, pts) = .ok st ∧
        st.2.length ≤ pts.length + es.length + (startIds es).length ∧ ∀ p ∈ st.2, p ∈ pts ∨ FromPair dbg segs p := by
  intro es
  induction es with
  | nil => intro s pts _ _ _ _ _; exact ⟨(s, pts), rfl, by simp, fun p hp => .inl hp⟩
  | cons e es ih =>
    intro s pts hn hs he hnd hdis
    have hst : startIds (e :: es) = (if e.type = .start then [e.segmentId] else []) ++ startIds es := by
      unfold startIds
      by_cases h : e.type = .start <;> simp [h]
    obtain ⟨s', pts', hstep, hn', hmem, hlen, hreal⟩ := boStep_gen hok o segs s pts e hn hs (he e (by simp)) (by
      intro h
      apply hdis
      rw [hst, if_pos h]; simp)
    have hnd' : (startIds es).Nodup := by
      rw [hst] at hnd
      exact (List.nodup_append'.1 hnd).2.1
    obtain ⟨st, hfold, hl, hr⟩ := ih s' pts' hn' (by
        intro i hi
        rcases hmem i hi with h | ⟨_, rfl⟩
        · exact hs i h
        · exact he e (by simp)) (fun e' he' => he e' (by simp [he'])) hnd' (by
        intro i hi hi'
        rcases hmem i hi' with h | ⟨h, rfl⟩
        · exact hdis i (by rw [hst]; exact List.mem_append.2 (.inr hi)) h
        · rw [hst, if_pos h] at hnd
          exact (List.nodup_append'.1 hnd).2.2 (by simp) hi)
    refine ⟨st, by rw [List.foldlM_cons, hstep]; exact hfold, ?_, ?_⟩
    · rw [hst]
      by_cases h : e.type = .start <;> simp [h] at hlen ⊢ <;> omega
    · intro p hp
      rcases hr p hp with h | h
      · exact hreal p h
      · exact .inr h

theorem boEvents_length (segs : List (Segment K 2)) : (boEvents segs).length = 2 * segs.length := by
  simp [boEvents, List.length_flatMap]; omega

theorem boEvents_mem {segs : List (Segment K 2)} {e : BOEvent K} : e ∈ boEvents segs ↔
    ∃ s, segs[e.segmentId]? = some s ∧ e.point = match e.type with | .start => s.source | .stop => s.target := by
  unfold boEvents
  rw [List.mem_flatMap]
  constructor
  · rintro ⟨⟨s, i⟩, h, he⟩
    rw [List.mem_zipIdx_iff_getElem?] at h
    simp only [List.mem_cons, List.not_mem_nil, or_false] at he
    rcases he with rfl | rfl
    · exact ⟨s, h, rfl⟩
    · exact ⟨s, h, rfl⟩
  · obtain ⟨p, i, ty⟩ := e
    rintro ⟨s, h, hp⟩
    refine ⟨(s, i), by rw [List.mem_zipIdx_iff_getElem?]; exact h, ?_⟩
    dsimp only at hp
    subst hp
    cases ty <;> simp

theorem startIds_boEvents (segs : List (Segment K 2)) : startIds (boEvents segs) = List.range segs.length := by
  have h : ∀ (l : List (Segment K 2 × Nat)), startIds (l.flatMap fun p =>
      [(⟨p.1.source, p.2, .start⟩ : BOEvent K), ⟨p.1.target, p.2, .stop⟩]) = l.map Prod.snd := by
    intro l
    induction l with
    | nil => rfl
    | cons a l ih => simp only [List.flatMap_cons, List.map_cons, ← ih]; simp [startIds]
  unfold boEvents
  rw [h, List.zipIdx_map_snd, List.range_eq_range']

theorem startIds_perm {es es' : List (BOEvent K)} (h : es.Perm es') : (startIds es).Perm (startIds es') :=
  (h.filter _).map _

/-- The sweep for any coordinate type and any order of the events, if the intersection of two segments never fails. -/
theorem bentleyOttmann_gen {dbg : Bool} (hok : ∀ a b : Segment K 2, ∃ r, intersectSegment2 dbg a b = .ok r) (o : StatusSearch) (segs : List (Segment K 2))
    (es : List (BOEvent K)) (hes : es.Perm (boEvents segs)) :
    ∃ pts, bentleyOttmann dbg o segs es = .ok pts ∧ pts.length ≤ 3 * segs.length ∧ ∀ p ∈ pts, FromPair dbg segs p := by
  have hsp := startIds_perm hes
  rw [startIds_boEvents] at hsp
  obtain ⟨st, h1, h2, h3⟩ := boLoop_gen hok o segs es [] [] List.nodup_nil (by simp) (by
      intro e he
      obtain ⟨s, hs, _⟩ := boEvents_mem.1 (hes.mem_iff.1 he)
      exact (List.getElem?_eq_some_iff.1 hs).1) (hsp.nodup_iff.2 List.nodup_range) (by simp)
  refine ⟨st.2, by unfold bentleyOttmann; rw [h1]; rfl, ?_, fun p hp => (h3 p hp).resolve_left (by simp)⟩
  have e1 := hes.length_eq
  have e2 := hsp.length_eq
  rw [boEvents_length] at e1
  rw [List.length_range] at e2
  simp only [List.length_nil] at h2
  omega

end

section
variable {K : Type} [Field K] [LinearOrder K] [IsStrictOrderedRing K] [Tol K] [LawfulTol K]

theorem intersectSegment2_ok (dbg : Bool) (a b : Segment K 2) : ∃ r, intersectSegment2 dbg a b = .ok r := by
  obtain ⟨r, hr, -⟩ := C30_sound dbg (LawfulTol.eps_pos : (0 : K) < Tol.eps) a.source a.target b.source b.target
  exact ⟨r, hr⟩

theorem boReport_ok (dbg : Bool) (segs : List (Segment K 2)) {i j : Nat} (hi : i < segs.length) (hj : j < segs.length)
    (hij : i ≠ j) (pts : List (Vec K 2)) :
    ∃ r, boReport dbg segs i j pts = .ok r ∧ r.length ≤ pts.length + 1 ∧ ∀ p ∈ r, p ∈ pts ∨ FromPair dbg segs p :=
  boReport_gen (intersectSegment2_ok dbg) segs hi hj hij pts

theorem bentleyOttmann_ok (dbg : Bool) (o : StatusSearch) (segs : List (Segment K 2)) (es : List (BOEvent K))
    (hes : PopOrder segs es) :
    ∃ pts, bentleyOttmann dbg o segs es = .ok pts ∧ pts.length ≤ 3 * segs.length ∧ ∀ p ∈ pts, FromPair dbg segs p :=
  bentleyOttmann_gen (intersectSegment2_ok dbg) o segs es hes.1

/-- **C39** Whatever the order of events with equal x and whatever the status tree does, the sweep never reads out of range
or fails an assertion, and every reported point lies (up to the parameter tolerance) on two different segments of the input. -/
theorem C39_real (dbg : Bool) (o : StatusSearch) (segs : List (Segment K 2)) (es : List (BOEvent K)) (hes : PopOrder segs es) :
    ∃ pts, bentleyOttmann dbg o segs es = .ok pts ∧ ∀ p ∈ pts, ∃ (i j : Nat) (si sj : Segment K 2), i ≠ j ∧
      segs[i]? = some si ∧ segs[j]? = some sj ∧
      p ∈ segmentUpTo Tol.eps si.source si.target ∧ p ∈ segmentUpTo Tol.eps sj.source sj.target := by
  obtain ⟨pts, h1, _, h3⟩ := bentleyOttmann_ok dbg o segs es hes
  refine ⟨pts, h1, fun p hp => ?_⟩
  obtain ⟨i, j, si, sj, hij, hi, hj, hp⟩ := h3 p hp
  obtain ⟨r, hr, hr'⟩ := C30_sound dbg (LawfulTol.eps_pos : (0 : K) < Tol.eps) si.source si.target sj.source sj.target
  have hr : intersectSegment2 dbg si sj = .ok r := hr
  rw [hp, Except.ok.injEq] at hr
  exact ⟨i, j, si, sj, hij, hi, hj, hr' p hr.symm⟩

/-- **C41** The sweep processes two events per segment and reports at most three points per segment. -/
theorem C41_linear (dbg : Bool) (o : StatusSearch) (segs : List (Segment K 2)) (es : List (BOEvent K)) (hes : PopOrder segs es) :
    es.length = 2 * segs.length ∧ ∃ pts, bentleyOttmann dbg o segs es = .ok pts ∧ pts.length ≤ 3 * segs.length := by
  obtain ⟨pts, h1, h2, _⟩ := bentleyOttmann_ok dbg o segs es hes
  exact ⟨by rw [hes.1.length_eq, boEvents_length], pts, h1, h2⟩

theorem boReport_mono {dbg : Bool} {segs : List (Segment K 2)} {i j : Nat} {pts r : List (Vec K 2)}
    (h : boReport dbg segs i j pts = .ok r) {p : Vec K 2} (hp : p ∈ pts) : p ∈ r := by
  unfold boReport at h
  rcases h1 : vecGet segs i with _ | si
  · rw [h1] at h; cases h
  rcases h2 : vecGet segs j with _ | sj
  · rw [h1, ok_bind, h2] at h; cases h
  rw [h1, ok_bind, h2, ok_bind] at h
  rcases h3 : intersectSegment2 dbg si sj with _ | (_ | q)
  · rw [h3] at h; cases h
  · rw [h3] at h; cases h; exact hp
  · rw [h3] at h; cases h; exact List.mem_append.2 (.inl hp)

theorem boReportOpt_mono {dbg : Bool} {segs : List (Segment K 2)} {i : Nat} {j : Option Nat} {pts r : List (Vec K 2)}
    (h : boReportOpt dbg segs i j pts = .ok r) {p : Vec K 2} (hp : p ∈ pts) : p ∈ r := by
  cases j with
  | none => cases h; exact hp
  | some j => exact boReport_mono h hp

theorem boReportBoth_mono {dbg : Bool} {segs : List (Segment K 2)} {i j : Option Nat} {pts r : List (Vec K 2)}
    (h : boReportBoth dbg segs i j pts = .ok r) {p : Vec K 2} (hp : p ∈ pts) : p ∈ r := by
  cases i with
  | none => cases h; exact hp
  | some i =>
    cases j with
    | none => cases h; exact hp
    | some j => exact boReport_mono h hp

theorem boStep_mono {dbg : Bool} {o : StatusSearch} {segs : List (Segment K 2)} {st st' : List Nat × List (Vec K 2)} {e : BOEvent K}
    (h : boStep dbg o segs st e = .ok st') {p : Vec K 2} (hp : p ∈ st.2) : p ∈ st'.2 := by
  unfold boStep at h
  cases hty : e.type with
  | start =>
    rw [hty] at h
    dsimp only at h
    rcases h1 : vecGet (statusInsert o st.1 e.segmentId).1 (statusInsert o st.1 e.segmentId).2 with _ | it
    · rw [h1] at h; cases h
    rw [h1, ok_bind] at h
    rcases h2 : boReportOpt dbg segs it (statusAbove (statusInsert o st.1 e.segmentId).1 (statusInsert o st.1 e.segmentId).2) st.2 with _ | r1
    · rw [h2] at h; cases h
    rw [h2, ok_bind] at h
    rcases h3 : boReportOpt dbg segs it (statusBelow (statusInsert o st.1 e.segmentId).1 (statusInsert o st.1 e.segmentId).2) r1 with _ | r2
    · rw [h3] at h; cases h
    rw [h3, ok_bind] at h
    cases h
    exact boReportOpt_mono h3 (boReportOpt_mono h2 hp)
  | stop =>
    rw [hty] at h
    dsimp only at h
    rcases h1 : statusFind o st.1 e.segmentId with _ | pos
    · rw [h1] at h; cases h; exact hp
    rw [h1] at h
    dsimp only at h
    rcases h2 : boReportBoth dbg segs (statusAbove st.1 pos) (statusBelow st.1 pos) st.2 with _ | r
    · rw [h2] at h; cases h
    rw [h2, ok_bind] at h
    cases h
    exact boReportBoth_mono h2 hp

theorem boLoop_mono {dbg : Bool} {o : StatusSearch} {segs : List (Segment K 2)} : ∀ {es : List (BOEvent K)}
    {st st' : List Nat × List (Vec K 2)}, es.foldlM (boStep dbg o segs) st = .ok st' → ∀ {p : Vec K 2}, p ∈ st.2 → p ∈ st'.2 := by
  intro es
  induction es with
  | nil => intro st st' h p hp; cases h; exact hp
  | cons e es ih =>
    intro st st' h p hp
    rw [List.foldlM_cons] at h
    rcases h1 : boStep dbg o segs st e with _ | st1
    · rw [h1] at h; cases h
    rw [h1] at h
    exact ih h (boStep_mono h1 hp)

/-- Two segments that the comparator orders strictly are both in the status after their start events, next to each other. -/
theorem boStep_two {dbg : Bool} {o : StatusSearch} {segs : List (Segment K 2)} (ho : o.Faithful (compStatus segs)) {i j : Nat}
    (hcmp : (compStatus segs i j = true ∧ compStatus segs j i = false) ∨ (compStatus segs i j = false ∧ compStatus segs j i = true))
    {si sj : Segment K 2} (hi : segs[i]? = some si) (hj : segs[j]? = some sj) {q : Vec K 2}
    (hq : intersectSegment2 dbg sj si = .ok (some q)) (pi pj : Vec K 2) :
    ∃ s, [(⟨pi, i, .start⟩ : BOEvent K), ⟨pj, j, .start⟩].foldlM (boStep dbg o segs) (([], []) : List Nat × List (Vec K 2)) =
      .ok (s, [q]) := by
  have hrep : boReport dbg segs j i [] = .ok [q] := by
    unfold boReport
    rw [vecGet_of_getElem? hj, ok_bind, vecGet_of_getElem? hi, ok_bind, hq]; rfl
  have l0 : o.insert [] i = (0, false) := (ho [] i 0 false ⟨by simp, by simp, by simp⟩).1
  have e0 : statusInsert o [] i = ([i], 0) := by simp [statusInsert, l0]
  have step0 : boStep dbg o segs ([], []) ⟨pi, i, .start⟩ = .ok ([i], []) := by
    unfold boStep
    dsimp only
    rw [e0]; rfl
  rw [List.foldlM_cons, step0, ok_bind, List.foldlM_cons]
  rcases hcmp with ⟨c1, c2⟩ | ⟨c1, c2⟩
  · have l1 : o.insert [i] j = (1, false) := (ho [i] j 1 false ⟨by
      intro k e hk hlt
      obtain rfl : k = 0 := by omega
      simp at hk; subst hk; exact ⟨c1, c2⟩, by
      intro k e hk hlt
      have := (List.getElem?_eq_some_iff.1 hk).1
      simp at this hlt; omega, by simp⟩).1
    have e1 : statusInsert o [i] j = ([i, j], 1) := by simp [statusInsert, l1]
    refine ⟨[i, j], ?_⟩
    have : boStep dbg o segs ([i], []) ⟨pj, j, .start⟩ = .ok ([i, j], [q]) := by
      unfold boStep
      dsimp only
      rw [e1]
      show (boReport dbg segs j i [] >>= _) = _
      rw [hrep]; rfl
    rw [this]; rfl
  · have l1 : o.insert [i] j = (0, false) := (ho [i] j 0 false ⟨by simp, by
      intro k e hk hlt
      have h := (List.getElem?_eq_some_iff.1 hk).1
      obtain rfl : k = 0 := by simp at h; omega
      simp at hk; subst hk; exact ⟨c2, c1⟩, by simp⟩).1
    have e1 : statusInsert o [i] j = ([j, i], 0) := by simp [statusInsert, l1]
    refine ⟨[j, i], ?_⟩
    have : boStep dbg o segs ([i], []) ⟨pj, j, .start⟩ = .ok ([j, i], [q]) := by
      unfold boStep
      dsimp only
      rw [e1]
      show (boReport dbg segs j i [] >>= _) = _
      rw [hrep]; rfl
    rw [this]; rfl

theorem computeY_line {s : Segment K 2} (h : s.source 0 < s.target 0) (x : K) :
    computeY s x = s.source 1 + (s.target 1 - s.source 1) * (x - s.source 0) / (s.target 0 - s.source 0) := by
  unfold computeY
  dsimp only
  rw [if_neg]; simpa using h.ne

theorem compSegments_eq (s1 s2 : Segment K 2) (h1 : s1.source 0 < s1.target 0) (h2 : s2.source 0 < s2.target 0) :
    compSegments s1 s2 = decide (computeY s1 (max (s1.source 0) (s2.source 0)) < computeY s2 (max (s1.source 0) (s2.source 0))) := by
  have hm : ∀ a b : K, a < b → stdMin a b = a := fun a b h => by unfold stdMin; rw [if_neg h.not_gt]
  have hM : ∀ a b : K, stdMax a b = max a b := fun a b => by
    unfold stdMax
    split
    · rw [max_eq_right (le_of_lt ‹_›)]
    · rw [max_eq_left (not_lt.1 ‹_›)]
  unfold compSegments
  dsimp only
  rw [hm _ _ h1, hm _ _ h2, hM]

/-- A crossing to the right of both start points is ordered strictly at the later start point. -/
theorem comp_strict (s1 s2 : Segment K 2) (h1 : s1.source 0 < s1.target 0) (h2 : s2.source 0 < s2.target 0)
    (hdet : (s1.target 0 - s1.source 0) * (s2.target 1 - s2.source 1) - (s2.target 0 - s2.source 0) * (s1.target 1 - s1.source 1) ≠ 0)
    {q : Vec K 2} (q1 : q ∈ Spec.segment s1.source s1.target) (q2 : q ∈ Spec.segment s2.source s2.target)
    (x1 : s1.source 0 < q 0) (x2 : s2.source 0 < q 0) :
    (compSegments s1 s2 = true ∧ compSegments s2 s1 = false) ∨ (compSegments s1 s2 = false ∧ compSegments s2 s1 = true) := by
  rw [compSegments_eq s1 s2 h1 h2, compSegments_eq s2 s1 h2 h1, max_comm (s2.source 0)]
  set m := max (s1.source 0) (s2.source 0) with hm
  have hmq : m < q 0 := max_lt x1 x2
  have hne : computeY s1 m ≠ computeY s2 m := by
    rw [computeY_line h1, computeY_line h2]
    intro h
    apply hdet
    obtain ⟨t, _, _, rfl⟩ := q1
    obtain ⟨u, _, _, hu⟩ := q2
    have u0 := congrFun hu 0
    have u1 := congrFun hu 1
    dsimp only at u0 u1 hmq
    have d1 : s1.target 0 - s1.source 0 ≠ 0 := (sub_pos.2 h1).ne'
    have d2 : s2.target 0 - s2.source 0 ≠ 0 := (sub_pos.2 h2).ne'
    have hx : s1.source 0 + t * (s1.target 0 - s1.source 0) - m ≠ 0 := (sub_pos.2 hmq).ne'
    field_simp at h
    apply mul_left_cancel₀ hx
    rw [mul_zero]
    generalize s1.target 0 - s1.source 0 = D1 at *
    generalize s2.target 0 - s2.source 0 = D2 at *
    generalize s1.target 1 - s1.source 1 = E1 at *
    generalize s2.target 1 - s2.source 1 = E2 at *
    linear_combination h + D1 * E2 * u0 - D1 * D2 * u1
  rcases lt_or_gt_of_ne hne with h | h
  · exact .inl ⟨by simpa using h, by simpa using h.le⟩
  · exact .inr ⟨by simpa using h.le, by simpa using h⟩

/-- **C40**, what does hold: of two segments given from left to right that are not nearly parallel, a common point to the right of both
start points is reported. Missing: more than two segments (`C40_counterexample`), segments given from right to left,
segments that meet at a start point. -/
theorem C40_two_partial (dbg : Bool) {o : StatusSearch} (s1 s2 : Segment K 2) (ho : o.Faithful (compStatus [s1, s2]))
    {es : List (BOEvent K)} (hes : PopOrder [s1, s2] es)
    (h1 : s1.source 0 < s1.target 0) (h2 : s2.source 0 < s2.target 0)
    (hdet : Tol.eps < |(s1.target 0 - s1.source 0) * (s2.target 1 - s2.source 1) - (s2.target 0 - s2.source 0) * (s1.target 1 - s1.source 1)|)
    {q : Vec K 2} (q1 : q ∈ Spec.segment s1.source s1.target) (q2 : q ∈ Spec.segment s2.source s2.target)
    (x1 : s1.source 0 < q 0) (x2 : s2.source 0 < q 0) :
    ∃ pts, bentleyOttmann dbg o [s1, s2] es = .ok pts ∧ q ∈ pts := by
  have hε : (0 : K) < Tol.eps := LawfulTol.eps_pos
  have hle : ∀ s : Segment K 2, s.source 0 < s.target 0 → q ∈ Spec.segment s.source s.target → q 0 ≤ s.target 0 := by
    rintro s hs ⟨t, t0, t1, rfl⟩
    dsimp only
    nlinarith
  have l1 := hle s1 h1 q1
  have l2 := hle s2 h2 q2
  have hcmp := comp_strict s1 s2 h1 h2 (by intro h; rw [h, abs_zero] at hdet; exact absurd hdet hε.not_gt) q1 q2 x1 x2
  have hq12 : intersectSegment2 dbg s1 s2 = .ok (some q) := C30_complete dbg hε s1.source s1.target s2.source s2.target q hdet q1 q2
  have hq21 : intersectSegment2 dbg s2 s1 = .ok (some q) := C30_complete dbg hε s2.source s2.target s1.source s1.target q
    (by rw [abs_sub_comm]; exact hdet) q2 q1
  obtain ⟨pts, hpts, -⟩ := bentleyOttmann_ok dbg o _ es hes
  have hfin : ∀ (i j : Nat) (pi pj : Vec K 2) (rest : List (BOEvent K)), es = ⟨pi, i, .start⟩ :: ⟨pj, j, .start⟩ :: rest →
      ((i = 0 ∧ j = 1) ∨ (i = 1 ∧ j = 0)) → q ∈ pts := by
    intro i j pi pj rest he hij
    have htwo : ∃ s, [(⟨pi, i, .start⟩ : BOEvent K), ⟨pj, j, .start⟩].foldlM (boStep dbg o [s1, s2])
        (([], []) : List Nat × List (Vec K 2)) = .ok (s, [q]) := by
      rcases hij with ⟨rfl, rfl⟩ | ⟨rfl, rfl⟩
      · exact boStep_two ho (by simpa [compStatus] using hcmp) rfl rfl hq21 pi pj
      · exact boStep_two ho (by simpa [compStatus] using hcmp.symm.imp And.symm And.symm) rfl rfl hq12 pi pj
    obtain ⟨s, htwo⟩ := htwo
    unfold bentleyOttmann at hpts
    have : es = [(⟨pi, i, .start⟩ : BOEvent K), ⟨pj, j, .start⟩] ++ rest := he
    rw [this, List.foldlM_append, htwo, ok_bind] at hpts
    rcases h3 : rest.foldlM (boStep dbg o [s1, s2]) (s, [q]) with _ | st
    · rw [h3] at hpts; cases hpts
    rw [h3, ok_bind] at hpts
    cases hpts
    exact boLoop_mono h3 (by simp)
  refine ⟨pts, hpts, ?_⟩
  obtain ⟨hperm, hsort⟩ := hes
  have hmem := List.mem_permutations.2 hperm
  simp [boEvents, List.permutations, List.permutationsAux, List.permutationsAux.rec, List.permutationsAux2] at hmem
  have lt11 := x1.trans_le l1
  have lt12 := x1.trans_le l2
  have lt21 := x2.trans_le l1
  have lt22 := x2.trans_le l2
  rcases hmem with h | h | h | h | h | h | h | h | h | h | h | h | h | h | h | h | h | h | h | h | h | h | h | h <;>
    first
    | exact hfin _ _ _ _ _ h (by simp)
    | (exfalso; subst h; simp [lt11.not_ge, lt12.not_ge, lt21.not_ge, lt22.not_ge] at hsort)

theorem stdMin_self (a : K) : stdMin a a = a := by unfold stdMin; rw [if_neg (lt_irrefl a)]

/-- **C40**, vertical segments: the crossing of a segment given from left to right with a vertical segment strictly between its
ends is reported, in whatever order the two events of the vertical segment come, unless the vertical segment starts on the other one
(`C40_touch_counterexample`). -/
theorem C40_vertical_partial (dbg : Bool) {o : StatusSearch} (s1 s2 : Segment K 2) (ho : o.Faithful (compStatus [s1, s2]))
    {es : List (BOEvent K)} (hes : PopOrder [s1, s2] es)
    (h1 : s1.source 0 < s2.source 0) (h2 : s2.source 0 < s1.target 0) (hv : s2.target 0 = s2.source 0)
    (hdet : Tol.eps < |(s1.target 0 - s1.source 0) * (s2.target 1 - s2.source 1) - (s2.target 0 - s2.source 0) * (s1.target 1 - s1.source 1)|)
    {q : Vec K 2} (q1 : q ∈ Spec.segment s1.source s1.target) (q2 : q ∈ Spec.segment s2.source s2.target) (hq : q ≠ s2.source) :
    ∃ pts, bentleyOttmann dbg o [s1, s2] es = .ok pts ∧ q ∈ pts := by
  have hε : (0 : K) < Tol.eps := LawfulTol.eps_pos
  have h12 := h1.trans h2
  have hq0 : q 0 = s2.source 0 := by
    obtain ⟨t, _, _, rfl⟩ := q2
    dsimp only
    rw [hv]; ring
  have hq1 : q 1 ≠ s2.source 1 := by
    intro h
    apply hq
    funext i; fin_cases i
    · exact hq0
    · exact h
  have y1 : computeY s1 (s2.source 0) = q 1 := by
    rw [computeY_line h12]
    obtain ⟨t, _, _, rfl⟩ := q1
    dsimp only at hq0 ⊢
    have hd : s1.target 0 - s1.source 0 ≠ 0 := (sub_pos.2 h12).ne'
    rw [← hq0]
    field_simp
    ring
  have y2 : ∀ x, computeY s2 x = s2.source 1 := by
    intro x
    unfold computeY
    dsimp only
    rw [if_pos (by simp [hv])]
  have m1 : stdMin (s1.source 0) (s1.target 0) = s1.source 0 := by unfold stdMin; rw [if_neg h12.not_gt]
  have m2 : stdMin (s2.source 0) (s2.target 0) = s2.source 0 := by rw [hv, stdMin_self]
  have M1 : stdMax (s1.source 0) (s2.source 0) = s2.source 0 := by unfold stdMax; rw [if_pos h1]
  have M2 : stdMax (s2.source 0) (s1.source 0) = s2.source 0 := by unfold stdMax; rw [if_neg h1.not_gt]
  have c1 : compStatus [s1, s2] 0 1 = decide (q 1 < s2.source 1) := by
    show compSegments s1 s2 = _
    unfold compSegments
    dsimp only
    rw [m1, m2, M1, y1, y2]
  have c2 : compStatus [s1, s2] 1 0 = decide (s2.source 1 < q 1) := by
    show compSegments s2 s1 = _
    unfold compSegments
    dsimp only
    rw [m1, m2, M2, y1, y2]
  have hcmp : (compStatus [s1, s2] 0 1 = true ∧ compStatus [s1, s2] 1 0 = false) ∨
      (compStatus [s1, s2] 0 1 = false ∧ compStatus [s1, s2] 1 0 = true) := by
    rw [c1, c2]
    rcases lt_or_gt_of_ne hq1 with h | h
    · exact .inl ⟨by simpa using h, by simpa using h.le⟩
    · exact .inr ⟨by simpa using h.le, by simpa using h⟩
  have hq21 : intersectSegment2 dbg s2 s1 = .ok (some q) := C30_complete dbg hε s2.source s2.target s1.source s1.target q
    (by rw [abs_sub_comm]; exact hdet) q2 q1
  obtain ⟨pts, hpts, -⟩ := bentleyOttmann_ok dbg o _ es hes
  have htwo : ∀ p0 p1 : Vec K 2, ∃ s, [(⟨p0, 0, .start⟩ : BOEvent K), ⟨p1, 1, .start⟩].foldlM (boStep dbg o [s1, s2])
      (([], []) : List Nat × List (Vec K 2)) = .ok (s, [q]) :=
    fun p0 p1 => boStep_two ho hcmp rfl rfl hq21 p0 p1
  -- an end event that comes before its start event changes nothing
  have hskip : ∀ p : Vec K 2, boStep dbg o [s1, s2] ([0], []) ⟨p, 1, .stop⟩ = .ok ([0], []) := by
    intro p
    have hf : statusFind o [0] 1 = none := by
      have : (o.find [0] 1).2 = false := by
        rcases hcmp with ⟨a, b⟩ | ⟨a, b⟩
        · have := (ho [0] 1 1 false ⟨by
            intro k e hk hlt
            obtain rfl : k = 0 := by omega
            simp at hk; subst hk; exact ⟨a, b⟩, by
            intro k e hk hlt
            have := (List.getElem?_eq_some_iff.1 hk).1
            simp at this hlt; omega, by simp⟩).2
          rw [this]
        · have := (ho [0] 1 0 false ⟨by simp, by
            intro k e hk hlt
            have h := (List.getElem?_eq_some_iff.1 hk).1
            obtain rfl : k = 0 := by simp at h; omega
            simp at hk; subst hk; exact ⟨b, a⟩, by simp⟩).2
          rw [this]
      simp [statusFind, this]
    unfold boStep
    dsimp only
    rw [hf]
  have hstart : ∀ p : Vec K 2, boStep dbg o [s1, s2] ([], []) ⟨p, 0, .start⟩ = .ok ([0], []) := by
    intro p
    have l0 : o.insert [] 0 = (0, false) := (ho [] 0 0 false ⟨by simp, by simp, by simp⟩).1
    have e0 : statusInsert o [] 0 = ([0], 0) := by simp [statusInsert, l0]
    unfold boStep
    dsimp only
    rw [e0]; rfl
  have hrest : ∀ (pre rest : List (BOEvent K)) (s : List Nat), es = pre ++ rest →
      pre.foldlM (boStep dbg o [s1, s2]) (([], []) : List Nat × List (Vec K 2)) = .ok (s, [q]) → q ∈ pts := by
    intro pre rest s he hpre
    unfold bentleyOttmann at hpts
    rw [he, List.foldlM_append, hpre, ok_bind] at hpts
    rcases h3 : rest.foldlM (boStep dbg o [s1, s2]) (s, [q]) with _ | st
    · rw [h3] at hpts; cases hpts
    rw [h3, ok_bind] at hpts
    cases hpts
    exact boLoop_mono h3 (by simp)
  refine ⟨pts, hpts, ?_⟩
  have hfin1 : ∀ (p0 p1 : Vec K 2) (rest : List (BOEvent K)), es = ⟨p0, 0, .start⟩ :: ⟨p1, 1, .start⟩ :: rest → q ∈ pts := by
    intro p0 p1 rest he
    obtain ⟨s, hs⟩ := htwo p0 p1
    exact hrest [_, _] rest s he hs
  have hfin2 : ∀ (p0 p1 p2 : Vec K 2) (rest : List (BOEvent K)),
      es = ⟨p0, 0, .start⟩ :: ⟨p1, 1, .stop⟩ :: ⟨p2, 1, .start⟩ :: rest → q ∈ pts := by
    intro p0 p1 p2 rest he
    obtain ⟨s, hs⟩ := htwo p0 p2
    refine hrest [_, _, _] rest s he ?_
    rw [List.foldlM_cons, hstart, ok_bind, List.foldlM_cons, hskip, ok_bind]
    rwa [List.foldlM_cons, hstart, ok_bind] at hs
  obtain ⟨hperm, hsort⟩ := hes
  have hmem := List.mem_permutations.2 hperm
  simp [boEvents, List.permutations, List.permutationsAux, List.permutationsAux.rec, List.permutationsAux2] at hmem
  rcases hmem with h | h | h | h | h | h | h | h | h | h | h | h | h | h | h | h | h | h | h | h | h | h | h | h <;>
    first
    | exact hfin1 _ _ _ h
    | exact hfin2 _ _ _ _ h
    | (exfalso; subst h; simp [h1.not_ge, h2.not_ge, h12.not_ge, hv] at hsort)
end

/-! ### Tree searches that respect the comparator exist -/

/-- Where a search from the left ends. -/
def scan (comp : Nat → Nat → Bool) (s : List Nat) (id : Nat) : Nat × Bool :=
  let k := s.findIdx fun e => !comp e id
  (k, match s[k]? with
    | some e => !comp id e
    | none => false)

theorem scan_of_locates {comp : Nat → Nat → Bool} {s : List Nat} {id k : Nat} {eq : Bool} (h : Locates comp s id k eq) :
    scan comp s id = (k, eq) := by
  obtain ⟨h1, h2, h3⟩ := h
  have hk : k ≤ s.length := by
    cases eq with
    | false => simpa using h3
    | true =>
      simp only [if_true] at h3
      obtain ⟨e, he, _⟩ := h3
      exact (List.getElem?_eq_some_iff.1 he).1.le
  have hidx : s.findIdx (fun e => !comp e id) = k := by
    rcases hk.eq_or_lt with rfl | hlt
    · apply List.findIdx_eq_length_of_false
      intro x hx
      obtain ⟨i, hi, rfl⟩ := List.getElem_of_mem hx
      simp [(h1 i _ (List.getElem?_eq_getElem hi) hi).1]
    · rw [List.findIdx_eq hlt]
      refine ⟨?_, fun j hj => ?_⟩
      · cases eq with
        | false => simp [(h2 k _ (List.getElem?_eq_getElem hlt) (by simp)).2]
        | true =>
          simp only [if_true] at h3
          obtain ⟨e, he, _, h4⟩ := h3
          rw [List.getElem?_eq_getElem hlt, Option.some.injEq] at he
          simp [he, h4]
      · simp [(h1 j _ (List.getElem?_eq_getElem (hj.trans hlt)) hj).1]
  unfold scan
  dsimp only
  rw [hidx]
  cases eq with
  | true =>
    simp only [if_true] at h3
    obtain ⟨e, he, h4, _⟩ := h3
    simp [he, h4]
  | false =>
    rcases hk.eq_or_lt with rfl | hlt
    · simp
    · rw [List.getElem?_eq_getElem hlt]
      simp [(h2 k _ (List.getElem?_eq_getElem hlt) (by simp)).1]

/-- Searching from the left is faithful to every comparator. -/
def scanSearch (comp : Nat → Nat → Bool) : StatusSearch := ⟨scan comp, scan comp⟩
theorem scanSearch_faithful (comp : Nat → Nat → Bool) : (scanSearch comp).Faithful comp :=
  fun _ _ _ _ h => ⟨scan_of_locates h, scan_of_locates h⟩

/-- A decision procedure for `Locates` on a list that is given. -/
def locatesB (comp : Nat → Nat → Bool) (s : List Nat) (id k : Nat) : Bool :=
  decide (k ≤ s.length) && (s.take k).all (fun e => comp e id && !comp id e) && (s.drop k).all (fun e => comp id e && !comp e id)

theorem locates_of_locatesB {comp : Nat → Nat → Bool} {s : List Nat} {id k : Nat} (h : locatesB comp s id k = true) :
    Locates comp s id k false := by
  unfold locatesB at h
  simp only [Bool.and_eq_true, decide_eq_true_eq, List.all_eq_true, Bool.not_eq_true'] at h
  obtain ⟨⟨hk, h1⟩, h2⟩ := h
  refine ⟨fun i e he hi => h1 e ?_, fun i e he hi => h2 e ?_, by simpa using hk⟩
  · exact List.mem_of_getElem? (i := i) (by rw [List.getElem?_take_of_lt hi]; exact he)
  · simp only [Bool.false_eq_true, if_false] at hi
    exact List.mem_of_getElem? (i := i - k) (by rw [List.getElem?_drop, Nat.add_sub_cancel' hi]; exact he)

def locatesEqB (comp : Nat → Nat → Bool) (s : List Nat) (id k : Nat) : Bool :=
  (s.take k).all (fun e => comp e id && !comp id e) && (s.drop (k + 1)).all (fun e => comp id e && !comp e id) &&
    (match s[k]? with | some e => !comp id e && !comp e id | none => false)

theorem locates_of_locatesEqB {comp : Nat → Nat → Bool} {s : List Nat} {id k : Nat} (h : locatesEqB comp s id k = true) :
    Locates comp s id k true := by
  unfold locatesEqB at h
  simp only [Bool.and_eq_true, List.all_eq_true, Bool.not_eq_true'] at h
  obtain ⟨⟨h1, h2⟩, h3⟩ := h
  refine ⟨fun i e he hi => h1 e ?_, fun i e he hi => h2 e ?_, ?_⟩
  · exact List.mem_of_getElem? (i := i) (by rw [List.getElem?_take_of_lt hi]; exact he)
  · simp only [if_true] at hi
    exact List.mem_of_getElem? (i := i - (k + 1)) (by rw [List.getElem?_drop, Nat.add_sub_cancel' hi]; exact he)
  · simp only [if_true]
    cases hs : s[k]? with
    | none => rw [hs] at h3; cases h3
    | some e =>
      rw [hs] at h3
      simp only [Bool.and_eq_true, Bool.not_eq_true'] at h3
      exact ⟨e, rfl, h3.1, h3.2⟩

section Examples
attribute [local instance] ratTol ratTol_lawful

/-- Three segments of which each pair crosses; the crossing of the last two is at (5, 5). -/
def boThree : List (Segment ℚ 2) := [⟨![-1, 4], ![11, 4]⟩, ⟨![0, 10], ![10, 0]⟩, ⟨![1, 1], ![9, 9]⟩]

def boThreeEvents : List (BOEvent ℚ) := [⟨![-1, 4], 0, .start⟩, ⟨![0, 10], 1, .start⟩, ⟨![1, 1], 2, .start⟩,
  ⟨![9, 9], 2, .stop⟩, ⟨![10, 0], 1, .stop⟩, ⟨![11, 4], 0, .stop⟩]

theorem boThree_pop : PopOrder boThree boThreeEvents := by
  constructor
  · show List.Perm _ [_, _, _, _, _, _]
    refine List.Perm.cons _ ?_
    refine (List.perm_middle (l₁ := [_, _, _, _]) (l₂ := [])).trans ?_
    refine List.Perm.cons _ (List.Perm.cons _ ?_)
    exact List.perm_append_comm (l₁ := [_, _]) (l₂ := [_])
  · simp [boThreeEvents]; decide +kernel

theorem boThree_pop_unique {es : List (BOEvent ℚ)} (h : PopOrder boThree es) : es = boThreeEvents := by
  refine (h.1.trans boThree_pop.1.symm).eq_of_pairwise (le := fun a b => ¬ b.point 0 < a.point 0) ?_ h.2 boThree_pop.2
  intro a b ha hb h1 h2
  have ha := (h.1.trans boThree_pop.1.symm).mem_iff.1 ha
  have he : a.point 0 = b.point 0 := le_antisymm (not_lt.1 h1) (not_lt.1 h2)
  simp only [boThreeEvents, List.mem_cons, List.not_mem_nil, or_false] at ha hb
  rcases ha with rfl | rfl | rfl | rfl | rfl | rfl <;> rcases hb with rfl | rfl | rfl | rfl | rfl | rfl <;>
    first
    | rfl
    | (exfalso; revert he; decide +kernel)

theorem boThree_result (dbg : Bool) {o : StatusSearch} (ho : o.Faithful (compStatus boThree)) :
    bentleyOttmann dbg o boThree boThreeEvents = .ok [![6, 4], ![4, 4]] := by
  have i0 : o.insert [] 0 = (0, false) := (ho _ _ _ _ (locates_of_locatesB (by decide +kernel))).1
  have i1 : o.insert [0] 1 = (1, false) := (ho _ _ _ _ (locates_of_locatesB (by decide +kernel))).1
  have i2 : o.insert [0, 1] 2 = (0, false) := (ho _ _ _ _ (locates_of_locatesB (by decide +kernel))).1
  have f2 : o.find [2, 0, 1] 2 = (0, true) := (ho _ _ _ _ (locates_of_locatesEqB (by decide +kernel))).2
  have f1 : o.find [0, 1] 1 = (1, true) := (ho _ _ _ _ (locates_of_locatesEqB (by decide +kernel))).2
  have f0 : o.find [0] 0 = (0, true) := (ho _ _ _ _ (locates_of_locatesEqB (by decide +kernel))).2
  have x1 : ∀ pts, boReport dbg boThree 1 0 pts = .ok (pts ++ [![6, 4]]) := by
    intro pts
    show (intersectSegment2 dbg ⟨![0, 10], ![10, 0]⟩ ⟨![-1, 4], ![11, 4]⟩ >>= _) = _
    have : intersectSegment2 dbg (⟨![0, 10], ![10, 0]⟩ : Segment ℚ 2) ⟨![-1, 4], ![11, 4]⟩ = .ok (some ![6, 4]) :=
      C30_complete dbg (by decide +kernel) (![0, 10]) (![10, 0]) (![-1, 4]) (![11, 4]) (![6, 4])
      (by decide +kernel) ⟨6 / 10, by norm_num, by norm_num, by funext i; fin_cases i <;> norm_num⟩
      ⟨7 / 12, by norm_num, by norm_num, by funext i; fin_cases i <;> norm_num⟩
    rw [this]; rfl
  have x2 : ∀ pts, boReport dbg boThree 2 0 pts = .ok (pts ++ [![4, 4]]) := by
    intro pts
    show (intersectSegment2 dbg ⟨![1, 1], ![9, 9]⟩ ⟨![-1, 4], ![11, 4]⟩ >>= _) = _
    have : intersectSegment2 dbg (⟨![1, 1], ![9, 9]⟩ : Segment ℚ 2) ⟨![-1, 4], ![11, 4]⟩ = .ok (some ![4, 4]) :=
      C30_complete dbg (by decide +kernel) (![1, 1]) (![9, 9]) (![-1, 4]) (![11, 4]) (![4, 4])
      (by decide +kernel) ⟨3 / 8, by norm_num, by norm_num, by funext i; fin_cases i <;> norm_num⟩
      ⟨5 / 12, by norm_num, by norm_num, by funext i; fin_cases i <;> norm_num⟩
    rw [this]; rfl
  have s0 : statusInsert o [] 0 = ([0], 0) := by simp [statusInsert, i0]
  have s1 : statusInsert o [0] 1 = ([0, 1], 1) := by simp [statusInsert, i1]
  have s2 : statusInsert o [0, 1] 2 = ([2, 0, 1], 0) := by simp [statusInsert, i2]
  have t2 : statusFind o [2, 0, 1] 2 = some 0 := by simp [statusFind, f2]
  have t1 : statusFind o [0, 1] 1 = some 1 := by simp [statusFind, f1]
  have t0 : statusFind o [0] 0 = some 0 := by simp [statusFind, f0]
  simp [bentleyOttmann, boThreeEvents, boStep, s0, s1, s2, t0, t1, t2, statusAbove, statusBelow, boReportOpt, boReportBoth, vecGet,
    x1, x2, ok_bind]

/-- **C40** is false: for these three segments, whatever the queue and the tree do, the crossing of the last two is not reported.
The sweep stops at start and end points only, never at crossings, so the two
are never neighbours. -/
theorem C40_counterexample (dbg : Bool) {o : StatusSearch} (ho : o.Faithful (compStatus boThree)) {es : List (BOEvent ℚ)}
    (hes : PopOrder boThree es) :
    ∃ si sj : Segment ℚ 2, boThree[1]? = some si ∧ boThree[2]? = some sj ∧
      ![5, 5] ∈ Spec.segment si.source si.target ∧ ![5, 5] ∈ Spec.segment sj.source sj.target ∧
      intersectSegment2 dbg si sj = .ok (some ![5, 5]) ∧
      ∃ pts, bentleyOttmann dbg o boThree es = .ok pts ∧ ![5, 5] ∉ pts := by
  obtain rfl := boThree_pop_unique hes
  refine ⟨_, _, rfl, rfl, ⟨1 / 2, by norm_num, by norm_num, ?_⟩, ⟨1 / 2, by norm_num, by norm_num, ?_⟩, ?_, _, boThree_result dbg ho, ?_⟩
  · funext i; fin_cases i <;> norm_num
  · funext i; fin_cases i <;> norm_num
  · exact C30_complete dbg (by decide +kernel) (![0, 10]) (![10, 0]) (![1, 1]) (![9, 9]) (![5, 5])
      (by decide +kernel) ⟨1 / 2, by norm_num, by norm_num, by funext i; fin_cases i <;> norm_num⟩
      ⟨1 / 2, by norm_num, by norm_num, by funext i; fin_cases i <;> norm_num⟩
  · decide +kernel

/-- **C40** (a vertical segment that starts on another segment) The comparator takes the two for the same element, so the
vertical one is never stored: nothing is reported, in whatever order its events come.  Its end event even removes the other
segment. -/
theorem C40_touch_counterexample (dbg : Bool) {o : StatusSearch}
    (ho : o.Faithful (compStatus [(⟨![0, 0], ![4, 0]⟩ : Segment ℚ 2), ⟨![2, 0], ![2, 3]⟩])) {es : List (BOEvent ℚ)}
    (hes : PopOrder [(⟨![0, 0], ![4, 0]⟩ : Segment ℚ 2), ⟨![2, 0], ![2, 3]⟩] es) :
    intersectSegment2 dbg (⟨![0, 0], ![4, 0]⟩ : Segment ℚ 2) ⟨![2, 0], ![2, 3]⟩ = .ok (some ![2, 0]) ∧
      bentleyOttmann dbg o [(⟨![0, 0], ![4, 0]⟩ : Segment ℚ 2), ⟨![2, 0], ![2, 3]⟩] es = .ok [] := by
  constructor
  · exact C30_complete dbg (by decide +kernel) (![0, 0]) (![4, 0]) (![2, 0]) (![2, 3]) (![2, 0])
      (by decide +kernel) ⟨1 / 2, by norm_num, by norm_num, by funext i; fin_cases i <;> norm_num⟩
      ⟨0, by norm_num, by norm_num, by funext i; fin_cases i <;> norm_num⟩
  have i0 : o.insert [] 0 = (0, false) := (ho _ _ _ _ (locates_of_locatesB (by decide +kernel))).1
  have j0 : o.insert [] 1 = (0, false) := (ho _ _ _ _ (locates_of_locatesB (by decide +kernel))).1
  have i1 : o.insert [0] 1 = (0, true) := (ho _ _ _ _ (locates_of_locatesEqB (by decide +kernel))).1
  have f1 : o.find [0] 1 = (0, true) := (ho _ _ _ _ (locates_of_locatesEqB (by decide +kernel))).2
  have f0 : o.find [1] 0 = (0, true) := (ho _ _ _ _ (locates_of_locatesEqB (by decide +kernel))).2
  have g0 : o.find [] 0 = (0, false) := (ho _ _ _ _ (locates_of_locatesB (by decide +kernel))).2
  have s0 : statusInsert o [] 0 = ([0], 0) := by simp [statusInsert, i0]
  have t0 : statusInsert o [] 1 = ([1], 0) := by simp [statusInsert, j0]
  have s1 : statusInsert o [0] 1 = ([0], 0) := by simp [statusInsert, i1]
  have u1 : statusFind o [0] 1 = some 0 := by simp [statusFind, f1]
  have u0 : statusFind o [1] 0 = some 0 := by simp [statusFind, f0]
  have u2 : statusFind o [] 0 = none := by simp [statusFind, g0]
  obtain ⟨hperm, hsort⟩ := hes
  have hmem := List.mem_permutations.2 hperm
  simp [boEvents, List.permutations, List.permutationsAux, List.permutationsAux.rec, List.permutationsAux2] at hmem
  rcases hmem with h | h | h | h | h | h | h | h | h | h | h | h | h | h | h | h | h | h | h | h | h | h | h | h <;>
    first
    | (exfalso; subst h; revert hsort; decide +kernel)
    | (subst h
       simp [bentleyOttmann, boStep, s0, t0, s1, u0, u1, u2, statusAbove, statusBelow, boReportOpt, boReportBoth, vecGet, ok_bind])

/-- `C40_vertical_partial` on a vertical segment that crosses at its middle. -/
example : ∃ (es : List (BOEvent ℚ)) (pts : List (Vec ℚ 2)),
    bentleyOttmann true (scanSearch (compStatus [(⟨![0, 0], ![4, 0]⟩ : Segment ℚ 2), ⟨![2, 1], ![2, -1]⟩]))
      [(⟨![0, 0], ![4, 0]⟩ : Segment ℚ 2), ⟨![2, 1], ![2, -1]⟩] es = .ok pts ∧ ![2, 0] ∈ pts := by
  let s1 : Segment ℚ 2 := ⟨![0, 0], ![4, 0]⟩
  let s2 : Segment ℚ 2 := ⟨![2, 1], ![2, -1]⟩
  have hes : PopOrder [s1, s2] [⟨s1.source, 0, .start⟩, ⟨s2.target, 1, .stop⟩, ⟨s2.source, 1, .start⟩, ⟨s1.target, 0, .stop⟩] := by
    constructor
    · exact List.Perm.cons _ (List.reverse_perm [_, _, _])
    · simp [s1, s2]; norm_num
  exact ⟨_, C40_vertical_partial true s1 s2 (scanSearch_faithful _) hes (by decide +kernel) (by decide +kernel) (by decide +kernel)
    (by decide +kernel) ⟨1 / 2, by norm_num, by norm_num, by funext i; fin_cases i <;> norm_num [s1]⟩
    ⟨1 / 2, by norm_num, by norm_num, by funext i; fin_cases i <;> norm_num [s2]⟩ (by decide +kernel)⟩

/-- The hypotheses of `C40_counterexample` can be met. -/
example : (scanSearch (compStatus boThree)).Faithful (compStatus boThree) ∧ PopOrder boThree boThreeEvents :=
  ⟨scanSearch_faithful _, boThree_pop⟩

/-- C39 and C41 on the same segments: two points are reported, and 2 ≤ 9. -/
example : ∃ pts : List (Vec ℚ 2), bentleyOttmann true (scanSearch (compStatus boThree)) boThree boThreeEvents = .ok pts ∧ pts.length = 2 ∧
    ∀ p ∈ pts, ∃ (i j : Nat) (si sj : Segment ℚ 2), i ≠ j ∧ boThree[i]? = some si ∧ boThree[j]? = some sj ∧
      p ∈ segmentUpTo Tol.eps si.source si.target ∧ p ∈ segmentUpTo Tol.eps sj.source sj.target := by
  obtain ⟨pts, h1, h2⟩ := C39_real true (scanSearch (compStatus boThree)) boThree boThreeEvents boThree_pop
  refine ⟨pts, h1, ?_, h2⟩
  rw [boThree_result true (scanSearch_faithful _), Except.ok.injEq] at h1
  rw [← h1]; rfl

/-- C40 on two of them: their crossing is reported. -/
example : ∃ (s1 s2 : Segment ℚ 2) (es : List (BOEvent ℚ)) (pts : List (Vec ℚ 2)),
    bentleyOttmann false (scanSearch (compStatus [s1, s2])) [s1, s2] es = .ok pts ∧ ![5, 5] ∈ pts := by
  let s1 : Segment ℚ 2 := ⟨![0, 10], ![10, 0]⟩
  let s2 : Segment ℚ 2 := ⟨![1, 1], ![9, 9]⟩
  have hes : PopOrder [s1, s2] [⟨s1.source, 0, .start⟩, ⟨s2.source, 1, .start⟩, ⟨s2.target, 1, .stop⟩, ⟨s1.target, 0, .stop⟩] := by
    constructor
    · exact (List.Perm.cons _ (List.perm_append_comm (l₁ := [_, _]) (l₂ := [_])))
    · simp [s1, s2]; decide +kernel
  obtain ⟨pts, h⟩ := C40_two_partial false s1 s2 (scanSearch_faithful _) hes (by decide +kernel) (by decide +kernel)
    (by decide +kernel) (q := ![5, 5])
    ⟨1 / 2, by norm_num, by norm_num, by funext i; fin_cases i <;> norm_num [s1]⟩
    ⟨1 / 2, by norm_num, by norm_num, by funext i; fin_cases i <;> norm_num [s2]⟩ (by decide +kernel) (by decide +kernel)
  exact ⟨s1, s2, _, pts, h⟩
example := C40_counterexample true (scanSearch_faithful _) boThree_pop
example : ∃ pts : List (Vec ℚ 2), bentleyOttmann true (scanSearch (compStatus boThree)) boThree boThreeEvents = .ok pts ∧ pts.length ≤ 9 :=
  (C41_linear true _ boThree boThreeEvents boThree_pop).2
example : bentleyOttmann true (scanSearch (compStatus [(⟨![0, 0], ![4, 0]⟩ : Segment ℚ 2), ⟨![2, 0], ![2, 3]⟩]))
    [(⟨![0, 0], ![4, 0]⟩ : Segment ℚ 2), ⟨![2, 0], ![2, 3]⟩]
    [⟨![0, 0], 0, .start⟩, ⟨![2, 0], 1, .start⟩, ⟨![2, 3], 1, .stop⟩, ⟨![4, 0], 0, .stop⟩] = .ok [] := by
  refine (C40_touch_counterexample true (scanSearch_faithful _) ⟨?_, ?_⟩).2
  · exact (List.Perm.cons _ (List.perm_append_comm (l₁ := [_, _]) (l₂ := [_])))
  · simp; decide +kernel
end Examples
end Verif
