import Verif.Proofs.Cone

set_option linter.unusedSectionVars false

/-
The index buffer of a cylinder.
-/
namespace Verif
open Spec

/-- The index of the top point above bottom point `b` (`1 ≤ b ≤ n`). -/
def topOf (n b : Nat) : Nat := if b = 1 then n + 2 else 2 * n + 3 - b

theorem topOf_spec (n b : Nat) : (b = 1 ∧ topOf n b = n + 2) ∨ (b ≠ 1 ∧ topOf n b = 2 * n + 3 - b) := by
  unfold topOf; split <;> simp_all

theorem tIdxMinusOne_eq {M n b : Nat} (hM : 2 * n + 2 < M) (h1 : 1 ≤ b) (h2 : b < n) :
    tIdxMinusOne M (n + 2) (2 * n + 1) (topOf n b) = topOf n (b + 1) := by
  have e1 := topOf_spec n b
  have e2 := topOf_spec n (b + 1)
  unfold tIdxMinusOne
  by_cases h : b = 1
  · rw [if_pos (by omega)]; omega
  · rw [if_neg (by omega), subM_of_le (by omega) (by omega)]; omega

theorem mantleLoop_eq {M n : Nat} (hM : 2 * n + 2 < M) : ∀ (k b : Nat), 1 ≤ b → b + k = n →
    mantleLoop M (n + 2) (2 * n + 1) k b (topOf n b) = (List.range' b k).flatMap fun i =>
      [i, topOf n i, i + 1, topOf n i, topOf n (i + 1), i + 1]
  | 0, b, _, _ => by simp [mantleLoop]
  | k + 1, b, h1, h2 => by
    rw [mantleLoop, Nat.mod_eq_of_lt (show b + 1 < M by omega), tIdxMinusOne_eq hM h1 (by omega),
      mantleLoop_eq hM k (b + 1) (by omega) (by omega), List.range'_succ, List.flatMap_cons]

/-- The index buffer of a cylinder. -/
def cylIdx (n : Nat) : List Nat :=
  ((List.range' 1 n).flatMap fun i => [0, i, nxt 1 n i]) ++
  ((List.range' (n + 2) n).flatMap fun i => [n + 1, i, nxt (n + 2) (2 * n + 1) i]) ++
  (List.range' 1 n).flatMap fun i => [i, topOf n i, nxt 1 n i, topOf n i, topOf n (nxt 1 n i), nxt 1 n i]

theorem calcCylinderTriangles_eq {T : Type} [Zero T] [Add T] [Mul T] [Div T] [Neg T] [OfNat T 2] [NatCast T] [HasTrig T] 
    (dbg : Bool) (M : Nat) (r h : T) (n : Nat) (hn : 2 ≤ n) (hM : 2 * n + 2 < M) :
    calcCylinderTriangles dbg M r h n = .ok ((vec3 0 0 0 :: discretizeCircle (vec3 0 0 0) r n .ccw) ++
      (vec3 0 0 h :: discretizeCircle (vec3 0 0 h) r n .cw), cylIdx n) := by
  unfold calcCylinderTriangles
  have hl : (vec3 0 0 0 :: discretizeCircle (vec3 0 0 0) r n .ccw).length = n + 1 := by
    simp [discretizeCircle_length]
  rw [calcCircleTriangles_eq M _ r n .ccw 0 (by omega), ok_bind]
  dsimp only
  rw [hl, toIdx_of_lt (show n + 1 < M by omega), calcCircleTriangles_eq M _ r n .cw (n + 1) (by omega), ok_bind]
  rw [Nat.mod_eq_of_lt (show n + 2 < M by omega), Nat.mod_eq_of_lt (show 2 * n + 1 < M by omega),
    Nat.mod_eq_of_lt (show n + 2 + 1 < M by omega)]
  rw [subM_of_le (show 1 ≤ n by omega) (by omega), subM_of_le (show n + 2 ≤ 2 * n + 1 by omega) (by omega),
    show 2 * n + 1 - (n + 2) = n - 1 by omega]
  simp only [beq_self_eq_true, geoAssert_true, ok_bind]
  congr 2
  have hm := mantleLoop_eq hM (n - 1) 1 le_rfl (by omega)
  rw [show topOf n 1 = n + 2 from rfl] at hm
  rw [hm, cylIdx, List.append_assoc, List.append_assoc, List.append_assoc, Nat.zero_add]
  rw [show n + 1 + 1 = n + 2 from rfl, show n + 1 + n = 2 * n + 1 by omega, Nat.zero_add]
  congr 2
  conv_rhs => rw [show n = (n - 1) + 1 by omega, List.range'_concat, ← show n = (n - 1) + 1 by omega]
  rw [List.flatMap_append, show 1 + 1 * (n - 1) = n by omega]
  congr 1
  · apply List.flatMap_congr
    intro i hi
    rw [List.mem_range'_1] at hi
    have : nxt 1 n i = i + 1 := by have := nxt_spec 1 n i; omega
    rw [this]
  · have e1 : nxt 1 n n = 1 := by simp [nxt]
    have e2 : topOf n n = n + 3 := by have := topOf_spec n n; omega
    have e3 : topOf n 1 = n + 2 := rfl
    simp [e1, e2, e3]

def cylTri (n : Nat) (x : Fin 4 × Nat) : Nat × Nat × Nat :=
  if x.1 = 0 then (0, x.2, nxt 1 n x.2)
  else if x.1 = 1 then (n + 1, n + 1 + x.2, nxt (n + 2) (2 * n + 1) (n + 1 + x.2))
  else if x.1 = 2 then (x.2, topOf n x.2, nxt 1 n x.2)
  else (topOf n x.2, topOf n (nxt 1 n x.2), nxt 1 n x.2)

def cylIds (n : Nat) : List (Fin 4 × Nat) :=
  (List.range' 1 n).map (0, ·) ++ (List.range' 1 n).map (1, ·) ++ (List.range' 1 n).flatMap fun i => [(2, i), (3, i)]

theorem cylIdx_triples (n : Nat) : triples (cylIdx n) = (cylIds n).map (cylTri n) := by
  unfold cylIdx cylIds
  have h6 : ∀ l : List Nat, triples (l.flatMap fun i => [i, topOf n i, nxt 1 n i, topOf n i, topOf n (nxt 1 n i), nxt 1 n i])
      = l.flatMap fun i => [(i, topOf n i, nxt 1 n i), (topOf n i, topOf n (nxt 1 n i), nxt 1 n i)] := by
    intro l
    induction l with
    | nil => rfl
    | cons i l ih => simp [List.flatMap_cons, triples, ih]
  rw [triples_append _ _ (by
      rw [List.length_append, flatMap_three_length _ fun i => (0, i, nxt 1 n i),
        flatMap_three_length _ fun i => (n + 1, i, nxt (n + 2) (2 * n + 1) i)]; omega),
    triples_append _ _ (by rw [flatMap_three_length _ fun i => (0, i, nxt 1 n i)]; omega),
    triples_flatMap _ fun i => (0, i, nxt 1 n i), triples_flatMap _ fun i => (n + 1, i, nxt (n + 2) (2 * n + 1) i), h6]
  simp only [List.map_append, List.map_map, List.map_flatMap]
  congr 1
  congr 1
  rw [show n + 2 = (n + 1) + 1 from rfl, ← List.map_add_range' 1 n 1, List.map_map]
  rfl

theorem cylIdx_length (n : Nat) : (cylIdx n).length = 12 * n := by
  unfold cylIdx
  rw [List.length_append, List.length_append, flatMap_three_length _ fun i => (0, i, nxt 1 n i),
    flatMap_three_length _ fun i => (n + 1, i, nxt (n + 2) (2 * n + 1) i)]
  simp [List.length_flatMap]; omega

theorem cylIds_mem {n : Nat} {x : Fin 4 × Nat} : x ∈ cylIds n ↔ 1 ≤ x.2 ∧ x.2 ≤ n := by
  obtain ⟨b, i⟩ := x
  fin_cases b <;> simp [cylIds, List.mem_range'_1] <;> omega

theorem cylIds_nodup (n : Nat) : (cylIds n).Nodup := by
  unfold cylIds
  rw [List.nodup_append', List.nodup_append']
  refine ⟨⟨List.Nodup.map (fun a b h => by simpa using h) List.nodup_range',
    List.Nodup.map (fun a b h => by simpa using h) List.nodup_range', ?_⟩, ?_, ?_⟩
  · rintro ⟨b, i⟩ h1 h2
    simp at h1 h2
    omega
  · rw [List.nodup_flatMap]
    refine ⟨fun i _ => by simp, ?_⟩
    refine List.Pairwise.imp ?_ List.nodup_range'
    intro i j hij
    rintro ⟨b, k⟩ h1 h2
    simp at h1 h2
    omega
  · rintro ⟨b, i⟩ h1 h2
    simp at h1 h2
    omega

theorem cylIdx_mem {n : Nat} (hn : 2 ≤ n) (i : Nat) : i ∈ cylIdx n ↔ i < 2 * n + 2 := by
  unfold cylIdx
  simp only [List.mem_append, List.mem_flatMap, List.mem_range'_1, List.mem_cons, List.not_mem_nil, or_false]
  constructor
  · rintro ((⟨k, hk, h⟩ | ⟨k, hk, h⟩) | ⟨k, hk, h⟩)
    · have := nxt_spec 1 n k; omega
    · have := nxt_spec (n + 2) (2 * n + 1) k; omega
    · have := nxt_spec 1 n k
      have := topOf_spec n k
      have := topOf_spec n (nxt 1 n k)
      omega
  · intro h
    rcases (by omega : i = 0 ∨ i = n + 1 ∨ (1 ≤ i ∧ i ≤ n) ∨ (n + 2 ≤ i ∧ i ≤ 2 * n + 1)) with rfl | rfl | h | h
    · exact .inl (.inl ⟨1, by omega, by simp⟩)
    · exact .inl (.inr ⟨n + 2, by omega, by simp⟩)
    · exact .inl (.inl ⟨i, by omega, by simp⟩)
    · exact .inl (.inr ⟨i, by omega, by simp⟩)

theorem cylTri_distinct {n : Nat} (hn : 2 ≤ n) (x : Fin 4 × Nat) (hx : x ∈ cylIds n) :
    (cylTri n x).1 ≠ (cylTri n x).2.1 ∧ (cylTri n x).2.1 ≠ (cylTri n x).2.2 ∧ (cylTri n x).2.2 ≠ (cylTri n x).1 := by
  obtain ⟨b, i⟩ := x
  have hx := cylIds_mem.1 hx
  have := nxt_spec 1 n i
  have := nxt_spec (n + 2) (2 * n + 1) (n + 1 + i)
  have := topOf_spec n i
  have := topOf_spec n (nxt 1 n i)
  fin_cases b <;> simp [cylTri] <;> omega

/-- The vertices of a cylinder: the two centres, the points of the bottom and of the top circle. -/
inductive CylV
  | c0
  | c1
  | b (i : Nat)
  | t (i : Nat)
  deriving DecidableEq

/-- The bottom point below the `k`-th top point; an involution. -/
def botOf (n k : Nat) : Nat := if k = 1 then 1 else n + 2 - k

theorem botOf_spec (n k : Nat) : (k = 1 ∧ botOf n k = 1) ∨ (k ≠ 1 ∧ botOf n k = n + 2 - k) := by
  unfold botOf; split <;> simp_all

def cylNum (n : Nat) : CylV → Nat
  | .c0 => 0
  | .c1 => n + 1
  | .b i => i
  | .t i => topOf n i

def cylTriV (n : Nat) (x : Fin 4 × Nat) : CylV × CylV × CylV :=
  if x.1 = 0 then (.c0, .b x.2, .b (nxt 1 n x.2))
  else if x.1 = 1 then (.c1, .t (botOf n x.2), .t (botOf n (nxt 1 n x.2)))
  else if x.1 = 2 then (.b x.2, .t x.2, .b (nxt 1 n x.2))
  else (.t x.2, .t (nxt 1 n x.2), .b (nxt 1 n x.2))

theorem cylTri_eq {n : Nat} {x : Fin 4 × Nat} (hx : x ∈ cylIds n) :
    cylTri n x = mapTriangle (cylNum n) (cylTriV n x) := by
  obtain ⟨b, i⟩ := x
  have hx := cylIds_mem.1 hx
  dsimp only at hx
  fin_cases b
  · rfl
  · have h1 := botOf_spec n i
    have h2 := topOf_spec n (botOf n i)
    have h3 := nxt_spec 1 n i
    have h4 := botOf_spec n (nxt 1 n i)
    have h5 := topOf_spec n (botOf n (nxt 1 n i))
    have h6 := nxt_spec (n + 2) (2 * n + 1) (n + 1 + i)
    simp [cylTri, cylTriV, mapTriangle, cylNum]
    omega
  · rfl
  · rfl

theorem cylTriV_corner {n : Nat} (hn : 2 ≤ n) {x : Fin 4 × Nat} (hx : x ∈ cylIds n) (v : CylV)
    (hv : v ∈ [(cylTriV n x).1, (cylTriV n x).2.1, (cylTriV n x).2.2]) :
    v = .c0 ∨ v = .c1 ∨ (∃ i, v = .b i ∧ 1 ≤ i ∧ i ≤ n) ∨ ∃ i, v = .t i ∧ 1 ≤ i ∧ i ≤ n := by
  obtain ⟨b, i⟩ := x
  have hx' := cylIds_mem.1 hx
  dsimp only at hx'
  have h3 := nxt_spec 1 n i
  have hq : 1 ≤ nxt 1 n i ∧ nxt 1 n i ≤ n := by omega
  have h1 := botOf_spec n i
  have h2 := botOf_spec n (nxt 1 n i)
  have hb : 1 ≤ botOf n i ∧ botOf n i ≤ n := by omega
  have hb' : 1 ≤ botOf n (nxt 1 n i) ∧ botOf n (nxt 1 n i) ≤ n := by omega
  fin_cases b <;> simp [cylTriV] at hv <;> rcases hv with rfl | rfl | rfl <;> simp [hq, hx', hb, hb']

theorem cylNum_inj {n : Nat} {u v : CylV}
    (hu : u = .c0 ∨ u = .c1 ∨ (∃ i, u = .b i ∧ 1 ≤ i ∧ i ≤ n) ∨ ∃ i, u = .t i ∧ 1 ≤ i ∧ i ≤ n)
    (hv : v = .c0 ∨ v = .c1 ∨ (∃ i, v = .b i ∧ 1 ≤ i ∧ i ≤ n) ∨ ∃ i, v = .t i ∧ 1 ≤ i ∧ i ≤ n)
    (h : cylNum n u = cylNum n v) : u = v := by
  rcases hu with rfl | rfl | ⟨i, rfl, hi⟩ | ⟨i, rfl, hi⟩ <;> rcases hv with rfl | rfl | ⟨j, rfl, hj⟩ | ⟨j, rfl, hj⟩ <;>
    simp only [cylNum] at h <;>
    first
      | rfl
      | omega
      | (have := topOf_spec n i; omega)
      | (have := topOf_spec n j; omega)
      | (simp; omega)
      | (have := topOf_spec n i; have := topOf_spec n j; simp; omega)

theorem cylTriV_closed {n : Nat} (hn : 3 ≤ n) : ClosedOriented ((cylIds n).map (cylTriV n)) := by
  apply closedOriented_of_ids _ (cylIds_nodup n)
  · rintro ⟨b, i⟩ hi
    have hi := cylIds_mem.1 hi
    have := nxt_spec 1 n i
    have := botOf_spec n i
    have := botOf_spec n (nxt 1 n i)
    fin_cases b <;> simp [cylTriV] <;> omega
  · rintro ⟨b, i⟩ hi ⟨c, j⟩ hj x y hx hy
    have hi := cylIds_mem.1 hi
    have hj := cylIds_mem.1 hj
    dsimp only at hi hj
    have h1 := nxt_spec 1 n i
    have h2 := nxt_spec 1 n j
    have hb : ∀ k, _ := botOf_spec n
    fin_cases b <;> simp [cylTriV, triEdges] at hx <;> rcases hx with ⟨rfl, rfl⟩ | ⟨rfl, rfl⟩ | ⟨rfl, rfl⟩ <;>
      fin_cases c <;> simp [cylTriV, triEdges] at hy ⊢ <;>
      (first
        | omega
        | (have := hb i; have := hb j; have := hb (nxt 1 n i); have := hb (nxt 1 n j); omega))
  · rintro ⟨b, i⟩ hi x y hx
    have hi' := cylIds_mem.1 hi
    dsimp only at hi'
    have h1 := nxt_spec 1 n i
    obtain ⟨p, hp1, hp2, hp⟩ : ∃ p, 1 ≤ p ∧ p ≤ n ∧ nxt 1 n p = i := by
      by_cases h : i = 1
      · exact ⟨n, by omega, le_rfl, by simp [nxt, h]⟩
      · refine ⟨i - 1, by omega, by omega, ?_⟩
        have := nxt_spec 1 n (i - 1); omega
    have hq : 1 ≤ nxt 1 n i ∧ nxt 1 n i ≤ n := by omega
    have b1 := botOf_spec n i
    have b2 := botOf_spec n (nxt 1 n i)
    have hbn : botOf n (nxt 1 n i) ≥ 1 ∧ botOf n (nxt 1 n i) ≤ n ∧ nxt 1 n (botOf n (nxt 1 n i)) = botOf n i := by
      have := nxt_spec 1 n (botOf n (nxt 1 n i))
      omega
    have htop : botOf n (nxt 1 n i) ≥ 1 ∧ botOf n (botOf n (nxt 1 n i)) = nxt 1 n i ∧
        botOf n (nxt 1 n (botOf n (nxt 1 n i))) = i := by
      rw [hbn.2.2]
      have := botOf_spec n (botOf n (nxt 1 n i))
      have := botOf_spec n (botOf n i)
      omega
    fin_cases b
    · simp [cylTriV, triEdges] at hx
      rcases hx with ⟨rfl, rfl⟩ | ⟨rfl, rfl⟩ | ⟨rfl, rfl⟩
      · exact ⟨(0, p), cylIds_mem.2 ⟨hp1, hp2⟩, by simp [cylTriV, triEdges, hp]⟩
      · exact ⟨(2, i), cylIds_mem.2 hi', by simp [cylTriV, triEdges]⟩
      · exact ⟨(0, nxt 1 n i), cylIds_mem.2 hq, by simp [cylTriV, triEdges]⟩
    · simp [cylTriV, triEdges] at hx
      rcases hx with ⟨rfl, rfl⟩ | ⟨rfl, rfl⟩ | ⟨rfl, rfl⟩
      · exact ⟨(1, p), cylIds_mem.2 ⟨hp1, hp2⟩, by simp [cylTriV, triEdges, hp]⟩
      · exact ⟨(3, botOf n (nxt 1 n i)), cylIds_mem.2 ⟨hbn.1, hbn.2.1⟩, by simp [cylTriV, triEdges, hbn.2.2]⟩
      · exact ⟨(1, nxt 1 n i), cylIds_mem.2 hq, by simp [cylTriV, triEdges]⟩
    · simp [cylTriV, triEdges] at hx
      rcases hx with ⟨rfl, rfl⟩ | ⟨rfl, rfl⟩ | ⟨rfl, rfl⟩
      · exact ⟨(3, p), cylIds_mem.2 ⟨hp1, hp2⟩, by simp [cylTriV, triEdges, hp]⟩
      · exact ⟨(3, i), cylIds_mem.2 hi', by simp [cylTriV, triEdges]⟩
      · exact ⟨(0, i), cylIds_mem.2 hi', by simp [cylTriV, triEdges]⟩
    · simp [cylTriV, triEdges] at hx
      rcases hx with ⟨rfl, rfl⟩ | ⟨rfl, rfl⟩ | ⟨rfl, rfl⟩
      · exact ⟨(1, botOf n (nxt 1 n i)), cylIds_mem.2 ⟨hbn.1, hbn.2.1⟩, by simp [cylTriV, triEdges, htop.2.1, htop.2.2]⟩
      · exact ⟨(2, nxt 1 n i), cylIds_mem.2 hq, by simp [cylTriV, triEdges]⟩
      · exact ⟨(2, i), cylIds_mem.2 hi', by simp [cylTriV, triEdges]⟩

theorem cylIdx_closed {n : Nat} (hn : 3 ≤ n) : ClosedOriented (triples (cylIdx n)) := by
  have e : triples (cylIdx n) = ((cylIds n).map (cylTriV n)).map (mapTriangle (cylNum n)) := by
    rw [cylIdx_triples, List.map_map]
    exact List.map_congr_left fun x hx => cylTri_eq hx
  rw [e]
  have hv : ∀ v ∈ corners ((cylIds n).map (cylTriV n)),
      v = .c0 ∨ v = .c1 ∨ (∃ i, v = .b i ∧ 1 ≤ i ∧ i ≤ n) ∨ ∃ i, v = .t i ∧ 1 ≤ i ∧ i ≤ n := by
    intro v hv
    rw [corners, List.mem_flatMap] at hv
    obtain ⟨t, ht, hv⟩ := hv
    obtain ⟨x, hx, rfl⟩ := List.mem_map.1 ht
    exact cylTriV_corner (by omega) hx v hv
  exact (cylTriV_closed hn).mapOn fun a ha b hb h => cylNum_inj (hv a ha) (hv b hb) h
end Verif
