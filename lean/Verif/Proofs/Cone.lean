import Verif.Proofs.Circle
import Verif.Proofs.Surface

set_option linter.unusedSectionVars false

/-
The index buffers of circles and cones.
-/
namespace Verif
open Spec

theorem loopIncl_of_lt {M a b : Nat} (h : b + 1 < M) : loopIncl M a b = .ok (List.range' a (b + 1 - a)) := by
  unfold loopIncl; rw [if_pos h]

theorem subM_of_le {M a b : Nat} (hb : b ≤ a) (ha : a < M) : subM M a b = a - b := by
  unfold subM
  rw [show a + (M - b) = (a - b) + M by omega, Nat.add_mod_right, Nat.mod_eq_of_lt (by omega)]

/-- The next index on a circle with indices `s, …, e`. -/
def nxt (s e i : Nat) : Nat := if i = e then s else i + 1

theorem discretizeCircle_length {T : Type} [Zero T] [Add T] [Mul T] [Div T] [Neg T] [OfNat T 2] [NatCast T] [HasTrig T] (c : Vec T 3) (r : T) (n : Nat)
    (dir : CircleDir) : (discretizeCircle c r n dir).length = n := by simp [discretizeCircle]

theorem calcCircleTriangles_eq {T : Type} [Zero T] [Add T] [Mul T] [Div T] [Neg T] [OfNat T 2] [NatCast T] [HasTrig T] 
    (M : Nat) (c : Vec T 3) (r : T) (n : Nat) (dir : CircleDir) (mid : Nat)
    (h : mid + n + 1 < M) :
    calcCircleTriangles M c r n dir mid = .ok (c :: discretizeCircle c r n dir,
      (List.range' (mid + 1) n).flatMap fun i => [mid, i, nxt (mid + 1) (mid + n) i]) := by
  unfold calcCircleTriangles
  have hs : (mid + 1) % M = mid + 1 := Nat.mod_eq_of_lt (by omega)
  have he : subM M ((mid + 1 + n) % M) 1 = mid + n := by
    rw [Nat.mod_eq_of_lt (by omega), subM_of_le (by omega) (by omega)]; omega
  dsimp only
  rw [hs, he, loopIncl_of_lt (by omega), ok_bind, show mid + n + 1 - (mid + 1) = n by omega]
  congr 2
  apply List.flatMap_congr
  intro i hi
  rw [List.mem_range'_1] at hi
  unfold nxt
  rw [Nat.mod_eq_of_lt (show i + 1 < M by omega)]

theorem calcConeTriangles_eq {T : Type} [Zero T] [Add T] [Mul T] [Div T] [Neg T] [OfNat T 2] [NatCast T] [HasTrig T] 
    (M : Nat) (r h : T) (n : Nat) (hM : n + 1 < M) :
    calcConeTriangles M r h n = .ok (vec3 0 0 0 :: discretizeCircle (vec3 0 0 0) r n .ccw ++ [vec3 0 0 h],
      ((List.range' 1 n).flatMap fun i => [0, i, nxt 1 n i]) ++
      (List.range' 1 n).flatMap fun i => [n + 1, nxt 1 n i, i]) := by
  unfold calcConeTriangles
  rw [calcCircleTriangles_eq M _ r n .ccw 0 (by omega), ok_bind]
  have hl : (vec3 0 0 0 :: discretizeCircle (vec3 0 0 0) r n .ccw ++ [vec3 0 0 h]).length = n + 2 := by
    simp [discretizeCircle_length]
  dsimp only
  rw [hl, toIdx_of_lt (show n + 2 - 2 < M by omega), toIdx_of_lt (show n + 2 - 1 < M by omega),
    loopIncl_of_lt (by omega), ok_bind]
  simp only [Nat.zero_add, Nat.add_sub_cancel, show n + 2 - 1 = n + 1 by omega]
  congr 3
  apply List.flatMap_congr
  intro i hi
  rw [List.mem_range'_1] at hi
  unfold nxt
  rw [Nat.mod_eq_of_lt (show i + 1 < M by omega)]

/-- The index buffer of a cone. -/
def coneIdx (n : Nat) : List Nat :=
  ((List.range' 1 n).flatMap fun i => [0, i, nxt 1 n i]) ++ (List.range' 1 n).flatMap fun i => [n + 1, nxt 1 n i, i]

def coneTri (n : Nat) (x : Bool × Nat) : Nat × Nat × Nat :=
  if x.1 then (n + 1, nxt 1 n x.2, x.2) else (0, x.2, nxt 1 n x.2)

def coneIds (n : Nat) : List (Bool × Nat) := (List.range' 1 n).map (false, ·) ++ (List.range' 1 n).map (true, ·)

theorem flatMap_three_length {ι : Type} (l : List ι) (f : ι → Nat × Nat × Nat) :
    (l.flatMap fun i => [(f i).1, (f i).2.1, (f i).2.2]).length = 3 * l.length := by
  simp [List.length_flatMap]; omega

theorem coneIdx_triples (n : Nat) : triples (coneIdx n) = (coneIds n).map (coneTri n) := by
  unfold coneIdx coneIds
  rw [triples_append _ _ (by rw [flatMap_three_length _ fun i => (0, i, nxt 1 n i)]; omega),
    triples_flatMap _ fun i => (0, i, nxt 1 n i), triples_flatMap _ fun i => (n + 1, nxt 1 n i, i)]
  simp [coneTri, Function.comp_def]

theorem coneIdx_length (n : Nat) : (coneIdx n).length = 6 * n := by
  unfold coneIdx
  rw [List.length_append, flatMap_three_length _ fun i => (0, i, nxt 1 n i), flatMap_three_length _ fun i => (n + 1, nxt 1 n i, i)]
  simp; omega

theorem nxt_spec (s e i : Nat) : (i = e ∧ nxt s e i = s) ∨ (i ≠ e ∧ nxt s e i = i + 1) := by
  unfold nxt; split <;> simp_all

theorem coneIds_mem {n : Nat} {x : Bool × Nat} : x ∈ coneIds n ↔ 1 ≤ x.2 ∧ x.2 ≤ n := by
  obtain ⟨b, i⟩ := x
  cases b <;> simp [coneIds, List.mem_range'_1] <;> omega

theorem coneIds_nodup (n : Nat) : (coneIds n).Nodup := by
  unfold coneIds
  rw [List.nodup_append']
  refine ⟨List.Nodup.map (fun a b h => by simpa using h) List.nodup_range', List.Nodup.map (fun a b h => by simpa using h) List.nodup_range', ?_⟩
  rintro ⟨b, i⟩ h1 h2
  simp only [List.mem_map, Prod.mk.injEq] at h1 h2
  obtain ⟨_, _, h1, _⟩ := h1
  obtain ⟨_, _, h2, _⟩ := h2
  rw [← h1] at h2
  simp at h2

theorem coneIdx_mem {n : Nat} (hn : 1 ≤ n) (i : Nat) : i ∈ coneIdx n ↔ i < n + 2 := by
  unfold coneIdx
  simp only [List.mem_append, List.mem_flatMap, List.mem_range'_1, List.mem_cons, List.not_mem_nil, or_false]
  constructor
  · rintro (⟨k, hk, h⟩ | ⟨k, hk, h⟩) <;> (have := nxt_spec 1 n k; omega)
  · intro h
    rcases (by omega : i = 0 ∨ i = n + 1 ∨ (1 ≤ i ∧ i ≤ n)) with rfl | rfl | h
    · exact .inl ⟨1, by omega, by simp⟩
    · exact .inr ⟨1, by omega, by simp⟩
    · exact .inl ⟨i, by omega, by simp⟩

theorem coneTri_distinct {n : Nat} (hn : 2 ≤ n) (x : Bool × Nat) (hx : x ∈ coneIds n) :
    (coneTri n x).1 ≠ (coneTri n x).2.1 ∧ (coneTri n x).2.1 ≠ (coneTri n x).2.2 ∧ (coneTri n x).2.2 ≠ (coneTri n x).1 := by
  obtain ⟨b, i⟩ := x
  have hx := coneIds_mem.1 hx
  have := nxt_spec 1 n i
  cases b <;> simp [coneTri] <;> omega

theorem coneIdx_closed {n : Nat} (hn : 3 ≤ n) : ClosedOriented (triples (coneIdx n)) := by
  rw [coneIdx_triples]
  apply closedOriented_of_ids _ (coneIds_nodup n) _ (coneTri_distinct (by omega))
  · rintro ⟨b, i⟩ hi ⟨c, j⟩ hj x y hx hy
    have hi := coneIds_mem.1 hi
    have hj := coneIds_mem.1 hj
    have h1 := nxt_spec 1 n i
    have h2 := nxt_spec 1 n j
    cases b <;> cases c <;> simp [coneTri, triEdges] at hx hy ⊢ <;> omega
  · rintro ⟨b, i⟩ hi x y hx
    have hi' := coneIds_mem.1 hi
    have h1 := nxt_spec 1 n i
    dsimp only at hi'
    obtain ⟨p, hp⟩ : ∃ p, 1 ≤ p ∧ p ≤ n ∧ nxt 1 n p = i := by
      by_cases h : i = 1
      · exact ⟨n, by omega, le_rfl, by simp [nxt, h]⟩
      · refine ⟨i - 1, by omega, by omega, ?_⟩
        have := nxt_spec 1 n (i - 1); omega
    have hq : 1 ≤ nxt 1 n i ∧ nxt 1 n i ≤ n := by omega
    cases b
    · simp [coneTri, triEdges] at hx
      rcases hx with ⟨rfl, rfl⟩ | ⟨rfl, rfl⟩ | ⟨rfl, rfl⟩
      · exact ⟨(false, p), coneIds_mem.2 ⟨hp.1, hp.2.1⟩, by simp [coneTri, triEdges, hp]⟩
      · exact ⟨(true, x), coneIds_mem.2 hi', by simp [coneTri, triEdges]⟩
      · exact ⟨(false, nxt 1 n i), coneIds_mem.2 hq, by simp [coneTri, triEdges]⟩
    · simp [coneTri, triEdges] at hx
      rcases hx with ⟨rfl, rfl⟩ | ⟨rfl, rfl⟩ | ⟨rfl, rfl⟩
      · exact ⟨(true, nxt 1 n i), coneIds_mem.2 hq, by simp [coneTri, triEdges]⟩
      · exact ⟨(false, y), coneIds_mem.2 hi', by simp [coneTri, triEdges]⟩
      · exact ⟨(true, p), coneIds_mem.2 ⟨hp.1, hp.2.1⟩, by simp [coneTri, triEdges, hp]⟩

theorem loops_of_distinct {ι : Type} {ids : List ι} {tri : ι → Nat × Nat × Nat}
    (hd : ∀ i ∈ ids, (tri i).1 ≠ (tri i).2.1 ∧ (tri i).2.1 ≠ (tri i).2.2 ∧ (tri i).2.2 ≠ (tri i).1) (a b : Nat)
    (h : (a, b) ∈ directedEdges (ids.map tri)) : a ≠ b := by
  obtain ⟨t, ht, he⟩ := mem_directedEdges.1 h
  obtain ⟨i, hi, rfl⟩ := List.mem_map.1 ht
  have := hd i hi
  generalize tri i = t at *
  obtain ⟨x, y, z⟩ := t
  simp [triEdges] at he
  dsimp only at this
  rcases he with ⟨rfl, rfl⟩ | ⟨rfl, rfl⟩ | ⟨rfl, rfl⟩
  · exact this.1
  · exact this.2.1
  · exact this.2.2
/-- The points of a cone before they are placed. -/
def conePoints {T : Type} [Zero T] [Add T] [Mul T] [Div T] [Neg T] [OfNat T 2] [NatCast T] [HasTrig T] (r h : T) (n : Nat) :
    List (Vec T 3) := vec3 0 0 0 :: discretizeCircle (vec3 0 0 0) r n .ccw ++ [vec3 0 0 h]

end Verif
