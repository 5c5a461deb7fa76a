import Verif.Proofs.Surface
import Verif.Proofs.Circle
import Verif.Proofs.Cone

set_option linter.unusedSectionVars false

/-
The index buffer and the points of a sphere.
-/
namespace Verif
open Spec Matrix

/-- The vertices of a sphere: the poles and the points of the rings. -/
inductive SphV
  | top
  | bot
  | g (i j : Nat)
  deriving DecidableEq

/-- The number of a vertex. -/
def sphNum (p n : Nat) : SphV → Nat
  | .top => (p - 1) * n
  | .bot => (p - 1) * n + 1
  | .g i j => i * n + j

/-- The vertices that exist. -/
def SphOk (p n : Nat) : SphV → Prop
  | .top => True
  | .bot => True
  | .g i j => i < p - 1 ∧ j < n

/-- The point before on a ring of `n` points. -/
def pv (n j : Nat) : Nat := if j = 0 then n - 1 else j - 1

theorem pv_spec (n j : Nat) : (j = 0 ∧ pv n j = n - 1) ∨ (j ≠ 0 ∧ pv n j = j - 1) := by
  unfold pv; split <;> simp_all

theorem grid_lt {p n i j : Nat} (hi : i < p - 1) (hj : j < n) : i * n + j < (p - 1) * n := by
  have : (i + 1) * n ≤ (p - 1) * n := Nat.mul_le_mul_right n hi
  have e : (i + 1) * n = i * n + n := Nat.succ_mul i n
  omega

theorem sphNum_lt {p n : Nat} {v : SphV} (h : SphOk p n v) : sphNum p n v < (p - 1) * n + 2 := by
  cases v with
  | top => simp [sphNum]
  | bot => simp [sphNum]
  | g i j => have := grid_lt h.1 h.2; simp only [sphNum]; omega

theorem sphNum_inj {p n : Nat} {u v : SphV} (hu : SphOk p n u) (hv : SphOk p n v) (h : sphNum p n u = sphNum p n v) : u = v := by
  cases u with
  | top => cases v with
    | top => rfl
    | bot => simp [sphNum] at h
    | g i j => have := grid_lt hv.1 hv.2; simp only [sphNum] at h; omega
  | bot => cases v with
    | top => simp [sphNum] at h
    | bot => rfl
    | g i j => have := grid_lt hv.1 hv.2; simp only [sphNum] at h; omega
  | g i j => cases v with
    | top => have := grid_lt hu.1 hu.2; simp only [sphNum] at h; omega
    | bot => have := grid_lt hu.1 hu.2; simp only [sphNum] at h; omega
    | g k l =>
      simp only [sphNum] at h
      have h1 : (i * n + j) / n = (k * n + l) / n := by rw [h]
      have h2 : (i * n + j) % n = (k * n + l) % n := by rw [h]
      have hj := hu.2
      have hl := hv.2
      have hn : 0 < n := by omega
      rw [Nat.mul_comm i, Nat.mul_comm k, Nat.mul_add_div hn, Nat.mul_add_div hn, Nat.div_eq_of_lt hj, Nat.div_eq_of_lt hl] at h1
      rw [Nat.mul_comm i, Nat.mul_comm k, Nat.mul_add_mod, Nat.mul_add_mod, Nat.mod_eq_of_lt hj, Nat.mod_eq_of_lt hl] at h2
      simp only [Nat.add_zero] at h1
      rw [h1, h2]

theorem sphNum_surj {p n : Nat} (hn : 1 ≤ n) {k : Nat} (h : k < (p - 1) * n + 2) : ∃ v, SphOk p n v ∧ sphNum p n v = k := by
  rcases (by omega : k = (p - 1) * n ∨ k = (p - 1) * n + 1 ∨ k < (p - 1) * n) with rfl | rfl | h
  · exact ⟨.top, trivial, rfl⟩
  · exact ⟨.bot, trivial, rfl⟩
  · refine ⟨.g (k / n) (k % n), ⟨?_, Nat.mod_lt _ hn⟩, ?_⟩
    · rw [Nat.div_lt_iff_lt_mul hn]; exact h
    · simp only [sphNum]; rw [Nat.mul_comm]; exact Nat.div_add_mod k n

/-- The triangles of a sphere: cap (0 top, 1 bottom) and body (2, 3) triangles `(kind, i, j)`. -/
def sphTriU (p n : Nat) (x : Fin 4 × Nat × Nat) : SphV × SphV × SphV :=
  if x.1 = 0 then (.top, .g 0 x.2.2, .g 0 (pv n x.2.2))
  else if x.1 = 1 then (.g (p - 2) x.2.2, .bot, .g (p - 2) (pv n x.2.2))
  else if x.1 = 2 then (.g (x.2.1 - 1) x.2.2, .g x.2.1 (pv n x.2.2), .g (x.2.1 - 1) (pv n x.2.2))
  else (.g x.2.1 (pv n x.2.2), .g (x.2.1 - 1) x.2.2, .g x.2.1 x.2.2)

/-- The same as the code writes them: some of the triangles closing a ring start at another corner. -/
def sphTriV (p n : Nat) (x : Fin 4 × Nat × Nat) : SphV × SphV × SphV :=
  if x.2.2 = 0 then
    if x.1 = 0 then (.g 0 (n - 1), .top, .g 0 0)
    else if x.1 = 1 then (.g (p - 2) 0, .bot, .g (p - 2) (n - 1))
    else if x.1 = 2 then (.g x.2.1 (n - 1), .g (x.2.1 - 1) (n - 1), .g (x.2.1 - 1) 0)
    else (.g x.2.1 0, .g x.2.1 (n - 1), .g (x.2.1 - 1) 0)
  else
    if x.1 = 0 then (.top, .g 0 x.2.2, .g 0 (x.2.2 - 1))
    else if x.1 = 1 then (.g (p - 2) x.2.2, .bot, .g (p - 2) (x.2.2 - 1))
    else if x.1 = 2 then (.g (x.2.1 - 1) x.2.2, .g x.2.1 (x.2.2 - 1), .g (x.2.1 - 1) (x.2.2 - 1))
    else (.g x.2.1 (x.2.2 - 1), .g (x.2.1 - 1) x.2.2, .g x.2.1 x.2.2)

theorem sphTriV_edges (p n : Nat) (x : Fin 4 × Nat × Nat) (e : SphV × SphV) :
    e ∈ triEdges (sphTriV p n x) ↔ e ∈ triEdges (sphTriU p n x) := by
  obtain ⟨k, i, j⟩ := x
  by_cases hj : j = 0
  · subst hj
    fin_cases k <;> simp [sphTriV, sphTriU, triEdges, pv] <;> tauto
  · fin_cases k <;> simp [sphTriV, sphTriU, triEdges, pv, hj]

/-- The triangles in the order of the code. -/
def sphIds (p n : Nat) : List (Fin 4 × Nat × Nat) :=
  [(0, 0, 0), (1, 0, 0)] ++ ((List.range' 1 (n - 1)).flatMap fun j => [(0, 0, j), (1, 0, j)]) ++
  (List.range' 1 (p - 2)).flatMap fun i =>
    ((List.range' 1 (n - 1)).flatMap fun j => [(2, i, j), (3, i, j)]) ++ [(2, i, 0), (3, i, 0)]

theorem sphIds_length {p n : Nat} (hp : 2 ≤ p) (hn : 1 ≤ n) : (sphIds p n).length = 2 * n * (p - 1) := by
  obtain ⟨p, rfl⟩ : ∃ q, p = q + 2 := ⟨p - 2, by omega⟩
  obtain ⟨n, rfl⟩ : ∃ q, n = q + 1 := ⟨n - 1, by omega⟩
  simp [sphIds, List.length_flatMap]
  ring

theorem sphIds_mem {p n : Nat} (hn : 1 ≤ n) {x : Fin 4 × Nat × Nat} :
    x ∈ sphIds p n ↔ x.2.2 < n ∧ (((x.1 = 0 ∨ x.1 = 1) ∧ x.2.1 = 0) ∨ ((x.1 = 2 ∨ x.1 = 3) ∧ 1 ≤ x.2.1 ∧ x.2.1 ≤ p - 2)) := by
  obtain ⟨k, i, j⟩ := x
  fin_cases k <;> simp [sphIds, List.mem_range'_1]
  · constructor
    · rintro (⟨rfl, rfl⟩ | ⟨h, rfl⟩)
      · exact ⟨by omega, rfl⟩
      · exact ⟨by omega, rfl⟩
    · rintro ⟨h, rfl⟩
      by_cases hj : j = 0
      · exact .inl ⟨rfl, hj⟩
      · exact .inr ⟨⟨by omega, by omega⟩, rfl⟩
  · constructor
    · rintro (⟨rfl, rfl⟩ | ⟨h, rfl⟩)
      · exact ⟨by omega, rfl⟩
      · exact ⟨by omega, rfl⟩
    · rintro ⟨h, rfl⟩
      by_cases hj : j = 0
      · exact .inl ⟨rfl, hj⟩
      · exact .inr ⟨⟨by omega, by omega⟩, rfl⟩
  · constructor
    · rintro ⟨a, ha, (h | h)⟩ <;> omega
    · rintro ⟨h, hi⟩
      exact ⟨i, by omega, by omega⟩
  · constructor
    · rintro ⟨a, ha, (h | h)⟩ <;> omega
    · rintro ⟨h, hi⟩
      exact ⟨i, by omega, by omega⟩

theorem sphIds_nodup (p n : Nat) : (sphIds p n).Nodup := by
  have h1 : ∀ (a b : Fin 4) (i : Nat), a ≠ b → ((List.range' 1 (n - 1)).flatMap fun j => [(a, i, j), (b, i, j)]).Nodup := by
    intro a b i hab
    rw [List.nodup_flatMap]
    refine ⟨fun j _ => by simp [hab], List.Pairwise.imp ?_ List.nodup_range'⟩
    rintro j j' hj ⟨k, i', l⟩ h1 h2
    simp at h1 h2
    omega
  unfold sphIds
  rw [List.nodup_append', List.nodup_append']
  refine ⟨⟨by simp, h1 0 1 0 (by simp), ?_⟩, ?_, ?_⟩
  · rintro ⟨k, i, j⟩ h1 h2
    simp [List.mem_range'_1] at h1 h2
    omega
  · rw [List.nodup_flatMap]
    refine ⟨fun i _ => ?_, List.Pairwise.imp ?_ List.nodup_range'⟩
    · rw [List.nodup_append']
      refine ⟨h1 2 3 i (by simp), by simp, ?_⟩
      rintro ⟨k, i', j⟩ h1 h2
      simp [List.mem_range'_1] at h1 h2
      omega
    · have hrow : ∀ (i : Nat) k a l, (k, a, l) ∈ ((List.range' 1 (n - 1)).flatMap fun j => [((2 : Fin 4), i, j), (3, i, j)]) ++
          [(2, i, 0), (3, i, 0)] → a = i := by
        intro i k a l h
        simp only [List.mem_append, List.mem_flatMap, List.mem_cons, List.not_mem_nil, or_false, Prod.mk.injEq] at h
        rcases h with ⟨_, _, h | h⟩ | h | h
        · exact h.2.1
        · exact h.2.1
        · exact h.2.1
        · exact h.2.1
      rintro i i' hi ⟨k, a, l⟩ h1 h2
      exact hi ((hrow i k a l h1).symm.trans (hrow i' k a l h2))
  · rintro ⟨k, i, j⟩ h1 h2
    simp [List.mem_range'_1] at h1 h2
    obtain ⟨a, ha, h2⟩ := h2
    have hk : k = 2 ∨ k = 3 := by
      rcases h2 with ⟨_, _, h⟩ | h
      · exact h.imp (·.1) (·.1)
      · exact h.imp (·.1) (·.1)
    have hk' : k = 0 ∨ k = 1 := by
      rcases h1 with h | h | ⟨_, _, h⟩
      · exact .inl h.1
      · exact .inr h.1
      · exact h.imp (·.1) (·.1)
    omega

theorem sphTriU_ok {p n : Nat} (hp : 2 ≤ p) {x : Fin 4 × Nat × Nat} (hx : x ∈ sphIds p n) (hn : 1 ≤ n) :
    SphOk p n (sphTriV p n x).1 ∧ SphOk p n (sphTriV p n x).2.1 ∧ SphOk p n (sphTriV p n x).2.2 := by
  have hx := (sphIds_mem hn).1 hx
  obtain ⟨k, i, j⟩ := x
  dsimp only at hx
  by_cases hj : j = 0
  · subst hj
    fin_cases k <;> simp [sphTriV, SphOk] at hx ⊢ <;> omega
  · fin_cases k <;> simp [sphTriV, SphOk, hj] at hx ⊢ <;> omega

theorem sphTriU_distinct {p n : Nat} (hn : 2 ≤ n) {x : Fin 4 × Nat × Nat} (hx : x ∈ sphIds p n) :
    (sphTriV p n x).1 ≠ (sphTriV p n x).2.1 ∧ (sphTriV p n x).2.1 ≠ (sphTriV p n x).2.2 ∧
      (sphTriV p n x).2.2 ≠ (sphTriV p n x).1 := by
  have hx := (sphIds_mem (by omega)).1 hx
  obtain ⟨k, i, j⟩ := x
  dsimp only at hx
  by_cases hj : j = 0
  · subst hj
    fin_cases k <;> simp [sphTriV] at hx ⊢ <;> omega
  · fin_cases k <;> simp [sphTriV, hj] at hx ⊢ <;> omega

theorem sphTriV_closed {p n : Nat} (hp : 2 ≤ p) (hn : 3 ≤ n) : ClosedOriented ((sphIds p n).map (sphTriV p n)) := by
  apply closedOriented_of_ids _ (sphIds_nodup p n)
  · intro x hx
    exact sphTriU_distinct (by omega) hx
  · rintro ⟨b, i, j⟩ hi ⟨c, k, l⟩ hk x y hx hy
    rw [sphTriV_edges] at hx hy
    have hi := (sphIds_mem (by omega)).1 hi
    have hk := (sphIds_mem (by omega)).1 hk
    dsimp only at hi hk
    have h1 := pv_spec n j
    have h2 := pv_spec n l
    fin_cases b <;> simp [sphTriU, triEdges] at hx hi <;> rcases hx with ⟨rfl, rfl⟩ | ⟨rfl, rfl⟩ | ⟨rfl, rfl⟩ <;>
      fin_cases c <;> simp [sphTriU, triEdges] at hy hk ⊢ <;> omega
  · rintro ⟨b, i, j⟩ hi x y hx
    rw [sphTriV_edges] at hx
    simp only [sphTriV_edges]
    have hi := (sphIds_mem (by omega)).1 hi
    dsimp only at hi
    have h1 := pv_spec n j
    have hpv : pv n j < n := by omega
    obtain ⟨q, hq1, hq⟩ : ∃ q, q < n ∧ pv n q = j := by
      by_cases h : j = n - 1
      · exact ⟨0, by omega, by simp [pv, h]⟩
      · refine ⟨j + 1, by omega, ?_⟩
        simp [pv]
    fin_cases b
    · simp at hi
      obtain ⟨hj, rfl⟩ := hi
      simp [sphTriU, triEdges] at hx
      rcases hx with ⟨rfl, rfl⟩ | ⟨rfl, rfl⟩ | ⟨rfl, rfl⟩
      · exact ⟨(0, 0, q), (sphIds_mem (by omega)).2 (by simp; omega), by simp [sphTriU, triEdges, hq]⟩
      · by_cases hp2 : p = 2
        · subst hp2
          exact ⟨(1, 0, j), (sphIds_mem (by omega)).2 (by simp; omega), by simp [sphTriU, triEdges]⟩
        · exact ⟨(2, 1, j), (sphIds_mem (by omega)).2 (by simp; omega), by simp [sphTriU, triEdges]⟩
      · exact ⟨(0, 0, pv n j), (sphIds_mem (by omega)).2 (by simp; omega), by simp [sphTriU, triEdges]⟩
    · simp at hi
      obtain ⟨hj, rfl⟩ := hi
      simp [sphTriU, triEdges] at hx
      rcases hx with ⟨rfl, rfl⟩ | ⟨rfl, rfl⟩ | ⟨rfl, rfl⟩
      · exact ⟨(1, 0, q), (sphIds_mem (by omega)).2 (by simp; omega), by simp [sphTriU, triEdges, hq]⟩
      · exact ⟨(1, 0, pv n j), (sphIds_mem (by omega)).2 (by simp; omega), by simp [sphTriU, triEdges]⟩
      · by_cases hp2 : p = 2
        · subst hp2
          exact ⟨(0, 0, j), (sphIds_mem (by omega)).2 (by simp; omega), by simp [sphTriU, triEdges]⟩
        · exact ⟨(3, p - 2, j), (sphIds_mem (by omega)).2 (by simp; omega), by simp [sphTriU, triEdges]⟩
    · simp at hi
      obtain ⟨hj, h1i, hi2⟩ := hi
      simp [sphTriU, triEdges] at hx
      rcases hx with ⟨rfl, rfl⟩ | ⟨rfl, rfl⟩ | ⟨rfl, rfl⟩
      · exact ⟨(3, i, j), (sphIds_mem (by omega)).2 (by simp; omega), by simp [sphTriU, triEdges]⟩
      · exact ⟨(3, i, pv n j), (sphIds_mem (by omega)).2 (by simp; omega), by simp [sphTriU, triEdges]⟩
      · by_cases hi1 : i = 1
        · subst hi1
          exact ⟨(0, 0, j), (sphIds_mem (by omega)).2 (by simp; omega), by simp [sphTriU, triEdges]⟩
        · exact ⟨(3, i - 1, j), (sphIds_mem (by omega)).2 (by simp; omega), by simp [sphTriU, triEdges]⟩
    · simp at hi
      obtain ⟨hj, h1i, hi2⟩ := hi
      simp [sphTriU, triEdges] at hx
      rcases hx with ⟨rfl, rfl⟩ | ⟨rfl, rfl⟩ | ⟨rfl, rfl⟩
      · exact ⟨(2, i, j), (sphIds_mem (by omega)).2 (by simp; omega), by simp [sphTriU, triEdges]⟩
      · exact ⟨(2, i, q), (sphIds_mem (by omega)).2 (by simp; omega), by simp [sphTriU, triEdges, hq]⟩
      · by_cases hi1 : i = p - 2
        · subst hi1
          exact ⟨(1, 0, j), (sphIds_mem (by omega)).2 (by simp; omega), by simp [sphTriU, triEdges]⟩
        · exact ⟨(2, i + 1, j), (sphIds_mem (by omega)).2 (by simp; omega), by simp [sphTriU, triEdges]⟩

/-- The numbers of the corners of a triangle. -/
def sphTri (p n : Nat) (x : Fin 4 × Nat × Nat) : Nat × Nat × Nat := mapTriangle (sphNum p n) (sphTriV p n x)

/-- The index buffer of a sphere without overflow. -/
def sphIdx (p n : Nat) : List Nat :=
  (sphIds p n).flatMap fun x => [(sphTri p n x).1, (sphTri p n x).2.1, (sphTri p n x).2.2]

theorem sphIdx_triples (p n : Nat) : triples (sphIdx p n) = (sphIds p n).map (sphTri p n) :=
  triples_flatMap _ _

theorem sphIdx_length {p n : Nat} (hp : 2 ≤ p) (hn : 1 ≤ n) : (sphIdx p n).length = 6 * n * (p - 1) := by
  unfold sphIdx
  rw [flatMap_three_length _ (sphTri p n), sphIds_length hp hn]; ring

theorem sphIdx_closed {p n : Nat} (hp : 2 ≤ p) (hn : 3 ≤ n) : ClosedOriented (triples (sphIdx p n)) := by
  have e : triples (sphIdx p n) = ((sphIds p n).map (sphTriV p n)).map (mapTriangle (sphNum p n)) := by
    rw [sphIdx_triples, List.map_map]; rfl
  rw [e]
  have hv : ∀ v ∈ corners ((sphIds p n).map (sphTriV p n)), SphOk p n v := by
    intro v hv
    rw [corners, List.mem_flatMap] at hv
    obtain ⟨t, ht, hv⟩ := hv
    obtain ⟨x, hx, rfl⟩ := List.mem_map.1 ht
    obtain ⟨h1, h2, h3⟩ := sphTriU_ok hp hx (by omega)
    simp only [List.mem_cons, List.not_mem_nil, or_false] at hv
    rcases hv with rfl | rfl | rfl <;> assumption
  exact (sphTriV_closed hp hn).mapOn fun a ha b hb h => sphNum_inj (hv a ha) (hv b hb) h

theorem sphTri_distinct {p n : Nat} (hp : 2 ≤ p) (hn : 2 ≤ n) (x : Fin 4 × Nat × Nat) (hx : x ∈ sphIds p n) :
    (sphTri p n x).1 ≠ (sphTri p n x).2.1 ∧ (sphTri p n x).2.1 ≠ (sphTri p n x).2.2 ∧ (sphTri p n x).2.2 ≠ (sphTri p n x).1 := by
  obtain ⟨h1, h2, h3⟩ := sphTriU_ok hp hx (by omega)
  obtain ⟨d1, d2, d3⟩ := sphTriU_distinct hn hx
  exact ⟨fun h => d1 (sphNum_inj h1 h2 h), fun h => d2 (sphNum_inj h2 h3 h), fun h => d3 (sphNum_inj h3 h1 h)⟩

theorem sphIdx_mem {p n : Nat} (hp : 2 ≤ p) (hn : 1 ≤ n) (k : Nat) : k ∈ sphIdx p n ↔ k < (p - 1) * n + 2 := by
  unfold sphIdx
  rw [List.mem_flatMap]
  constructor
  · rintro ⟨x, hx, h⟩
    obtain ⟨h1, h2, h3⟩ := sphTriU_ok hp hx hn
    simp only [List.mem_cons, List.not_mem_nil, or_false] at h
    rcases h with rfl | rfl | rfl
    · exact sphNum_lt h1
    · exact sphNum_lt h2
    · exact sphNum_lt h3
  · intro h
    obtain ⟨v, hv, rfl⟩ := sphNum_surj hn h
    cases v with
    | top => exact ⟨(0, 0, 0), (sphIds_mem hn).2 (by simp; omega), by simp [sphTri, sphTriV, mapTriangle]⟩
    | bot => exact ⟨(1, 0, 0), (sphIds_mem hn).2 (by simp; omega), by simp [sphTri, sphTriV, mapTriangle]⟩
    | g i j =>
      simp only [SphOk] at hv
      by_cases hi : i = 0
      · subst hi
        refine ⟨(0, 0, j), (sphIds_mem hn).2 (by simp; omega), ?_⟩
        by_cases hj : j = 0 <;> simp [sphTri, sphTriV, mapTriangle, hj]
      · refine ⟨(3, i, j), (sphIds_mem hn).2 (by simp; omega), ?_⟩
        by_cases hj : j = 0 <;> simp [sphTri, sphTriV, mapTriangle, hj]

theorem flatMap_two {ι κ : Type} (l : List ι) (a b : ι → κ) (f : κ → List Nat) :
    (l.flatMap fun i => [a i, b i]).flatMap f = l.flatMap fun i => f (a i) ++ f (b i) := by
  rw [List.flatMap_assoc]
  apply List.flatMap_congr
  intro i _
  simp

theorem calcSphereTriangleIndices_eq {M p n : Nat} (hp : 2 ≤ p) (hn : 1 ≤ n) (hM : (p - 1) * n + 2 < M) :
    calcSphereTriangleIndices M p n ((p - 1) * n + 2) = sphIdx p n := by
  have hnM : n ≤ (p - 1) * n := by
    calc n = 1 * n := (Nat.one_mul n).symm
      _ ≤ (p - 1) * n := Nat.mul_le_mul_right n (by omega)
  have hpM : p - 1 ≤ (p - 1) * n := by
    calc p - 1 = (p - 1) * 1 := (Nat.mul_one _).symm
      _ ≤ (p - 1) * n := Nat.mul_le_mul_left _ hn
  have hidx : ∀ i j, i < p - 1 → j < n → sphereIdx M n i j = i * n + j := by
    intro i j hi hj
    have := grid_lt hi hj
    unfold sphereIdx
    rw [Nat.mod_eq_of_lt (by omega)]
  unfold calcSphereTriangleIndices
  dsimp only
  rw [subM_of_le (show 2 ≤ (p - 1) * n + 2 by omega) (by omega), subM_of_le (show 1 ≤ (p - 1) * n + 2 by omega) (by omega),
    subM_of_le hp (by omega), subM_of_le hn (by omega), subM_of_le (show 1 ≤ p by omega) (by omega)]
  rw [hidx 0 (n - 1) (by omega) (by omega), hidx 0 0 (by omega) (by omega), hidx (p - 2) 0 (by omega) (by omega),
    hidx (p - 2) (n - 1) (by omega) (by omega)]
  unfold sphIdx sphIds
  rw [List.flatMap_append, List.flatMap_append, flatMap_two, List.flatMap_assoc]
  rw [show (p - 1) * n + 2 - 2 = (p - 1) * n by omega, show (p - 1) * n + 2 - 1 = (p - 1) * n + 1 by omega,
    show p - 1 - 1 = p - 2 by omega]
  congr 1
  · congr 1
    apply List.flatMap_congr
    intro j hj
    rw [List.mem_range'_1] at hj
    unfold sphereCapRound
    rw [subM_of_le (show 1 ≤ j by omega) (by omega), hidx 0 j (by omega) (by omega), hidx 0 (j - 1) (by omega) (by omega),
      hidx (p - 2) j (by omega) (by omega), hidx (p - 2) (j - 1) (by omega) (by omega)]
    have hj0 : j ≠ 0 := by omega
    simp [sphTri, sphTriV, mapTriangle, sphNum, hj0]
  · apply List.flatMap_congr
    intro i hi
    rw [List.mem_range'_1] at hi
    rw [List.flatMap_append, flatMap_two]
    congr 1
    · apply List.flatMap_congr
      intro j hj
      rw [List.mem_range'_1] at hj
      unfold sphereBodyRound
      dsimp only
      rw [subM_of_le (show 1 ≤ j by omega) (by omega), subM_of_le (show 1 ≤ i by omega) (by omega),
        hidx i j (by omega) (by omega), hidx i (j - 1) (by omega) (by omega), hidx (i - 1) j (by omega) (by omega),
        hidx (i - 1) (j - 1) (by omega) (by omega)]
      have hj0 : j ≠ 0 := by omega
      simp [sphTri, sphTriV, mapTriangle, sphNum, hj0]
    · unfold sphereWrap
      dsimp only
      rw [subM_of_le hn (by omega), subM_of_le (show 1 ≤ i by omega) (by omega), hidx i (n - 1) (by omega) (by omega),
        hidx (i - 1) (n - 1) (by omega) (by omega), hidx (i - 1) 0 (by omega) (by omega), hidx i 0 (by omega) (by omega)]
      simp [sphTri, sphTriV, mapTriangle, sphNum]

end Verif
