import Verif.Proofs.Manifold
import Verif.Props.Inscribed

set_option linter.unusedSectionVars false

/-
The meshes are connected and have no pinched vertex.
-/
namespace Verif
open Spec

/-- A connected surface in which the triangles around every vertex form one fan. -/
def Manifold {V : Type} (ts : List (V × V × V)) : Prop := OnePiece ts ∧ ∀ v, OneFan ts v

theorem Manifold.renamed {V W : Type} {ts : List (V × V × V)} (h : Manifold ts) (f : V → W)
    (hf : ∀ a ∈ corners ts, ∀ b ∈ corners ts, f a = f b → a = b) : Manifold (ts.map (mapTriangle f)) :=
  ⟨h.1.map f, OneFan.map f h.2 hf⟩

theorem Manifold.turned {V : Type} {ts : List (V × V × V)} (h : Manifold ts) : Manifold (ts.map reversed) :=
  ⟨h.1.reversed, fun v => (h.2 v).reversed⟩

/-! ### Cones -/

theorem coneTri_manifold {n : ℕ} (hn : 1 ≤ n) : Manifold ((coneIds n).map (coneTri n)) := by
  have mem : ∀ b i, 1 ≤ i → i ≤ n → (b, i) ∈ coneIds n := fun b i h h' => coneIds_mem.2 ⟨h, h'⟩
  -- base and mantle share the rim edge
  have hrim : ∀ i, 1 ≤ i → i ≤ n → Link (coneIds n) (coneTri n) i (false, i) (true, i) ∧
      Link (coneIds n) (coneTri n) (nxt 1 n i) (false, i) (true, i) := by
    intro i h1 h2
    exact link_step (mem _ _ h1 h2) (mem _ _ h1 h2) (a := i) (b := nxt 1 n i) (by simp [coneTri, triEdges]) (by simp [coneTri, triEdges])
  -- neighbours of the base share an edge at the centre
  have hbase : ∀ i, 1 ≤ i → i < n → Link (coneIds n) (coneTri n) 0 (false, i) (false, i + 1) := by
    intro i h1 h2
    have e : nxt 1 n i = i + 1 := by have := nxt_spec 1 n i; omega
    exact (link_step (mem _ _ h1 h2.le) (mem _ _ (by omega) h2) (a := i + 1) (b := 0) (by simp [coneTri, triEdges, e]) (by simp [coneTri, triEdges])).2
  have hbase' : ∀ i, 1 ≤ i → i ≤ n → Link (coneIds n) (coneTri n) (nxt 1 n i) (false, i) (false, nxt 1 n i) := by
    intro i h1 h2
    have := nxt_spec 1 n i
    exact (link_step (mem _ _ h1 h2) (mem _ _ (by omega) (by omega)) (a := nxt 1 n i) (b := 0) (by simp [coneTri, triEdges]) (by simp [coneTri, triEdges])).1
  have hapex : ∀ i, 1 ≤ i → i < n → Link (coneIds n) (coneTri n) (n + 1) (true, i) (true, i + 1) := by
    intro i h1 h2
    have e : nxt 1 n i = i + 1 := by have := nxt_spec 1 n i; omega
    exact (link_step (mem _ _ h1 h2.le) (mem _ _ (by omega) h2) (a := n + 1) (b := i + 1) (by simp [coneTri, triEdges, e]) (by simp [coneTri, triEdges])).1
  have c0 := link_chain (fun i => (false, i)) hbase
  have c1 := link_chain (fun i => (true, i)) hapex
  constructor
  · apply onePiece_of_ids (false, 1)
    rintro ⟨b, i⟩ hx
    have hi := coneIds_mem.1 hx
    cases b
    · exact (c0 i hi.1 hi.2).walk
    · exact (c0 i hi.1 hi.2).walk.trans (hrim i hi.1 hi.2).1.walk
  · intro v
    rcases (by omega : v = 0 ∨ v = n + 1 ∨ (1 ≤ v ∧ v ≤ n) ∨ n + 1 < v) with rfl | rfl | ⟨hv1, hv2⟩ | hv
    · apply oneFan_of_ids (false, 1)
      rintro ⟨b, i⟩ hx c hc
      have hi := coneIds_mem.1 hx
      have := nxt_spec 1 n i
      cases b
      · exact c0 i hi.1 hi.2
      · exfalso; simp [coneTri, triEdges] at hc hi; omega
    · apply oneFan_of_ids (true, 1)
      rintro ⟨b, i⟩ hx c hc
      have hi := coneIds_mem.1 hx
      have := nxt_spec 1 n i
      cases b
      · exfalso; simp [coneTri, triEdges] at hc hi; omega
      · exact c1 i hi.1 hi.2
    · apply oneFan_of_ids (false, v)
      rintro ⟨b, i⟩ hx c hc
      have hi := coneIds_mem.1 hx
      dsimp only at hi
      have hnx := nxt_spec 1 n i
      have hvi : v = i ∨ v = nxt 1 n i := by
        cases b <;> simp [coneTri, triEdges] at hc <;> omega
      rcases hvi with rfl | rfl
      · cases b
        · exact .refl
        · exact (hrim v hv1 hv2).1
      · cases b
        · exact (hbase' i hi.1 hi.2).symm
        · exact (hbase' i hi.1 hi.2).symm.trans (hrim i hi.1 hi.2).2
    · apply oneFan_of_ids (false, 1)
      rintro ⟨b, i⟩ hx c hc
      have hi := coneIds_mem.1 hx
      dsimp only at hi
      have hnx := nxt_spec 1 n i
      exfalso
      cases b <;> simp [coneTri, triEdges] at hc <;> omega

/-! ### Cylinders -/

theorem cylTriV_manifold {n : ℕ} (hn : 1 ≤ n) : Manifold ((cylIds n).map (cylTriV n)) := by
  have mem : ∀ b i, 1 ≤ i → i ≤ n → (b, i) ∈ cylIds n := fun b i h h' => cylIds_mem.2 ⟨h, h'⟩
  set L := Link (cylIds n) (cylTriV n) with hL
  have hq : ∀ i, 1 ≤ i → i ≤ n → 1 ≤ nxt 1 n i ∧ nxt 1 n i ≤ n := by
    intro i _ _; have := nxt_spec 1 n i; omega
  have h02 : ∀ i, 1 ≤ i → i ≤ n → L (.b i) (0, i) (2, i) ∧ L (.b (nxt 1 n i)) (0, i) (2, i) := fun i h1 h2 =>
    link_step (mem _ _ h1 h2) (mem _ _ h1 h2) (by simp [cylTriV, triEdges]) (by simp [cylTriV, triEdges])
  have h23 : ∀ i, 1 ≤ i → i ≤ n → L (.t i) (2, i) (3, i) ∧ L (.b (nxt 1 n i)) (2, i) (3, i) := fun i h1 h2 =>
    link_step (mem _ _ h1 h2) (mem _ _ h1 h2) (by simp [cylTriV, triEdges]) (by simp [cylTriV, triEdges])
  have h32 : ∀ i, 1 ≤ i → i ≤ n → L (.t (nxt 1 n i)) (3, i) (2, nxt 1 n i) ∧ L (.b (nxt 1 n i)) (3, i) (2, nxt 1 n i) := fun i h1 h2 =>
    link_step (mem _ _ h1 h2) (mem _ _ (hq i h1 h2).1 (hq i h1 h2).2) (by simp [cylTriV, triEdges]) (by simp [cylTriV, triEdges])
  have h00 : ∀ i, 1 ≤ i → i ≤ n → L (.b (nxt 1 n i)) (0, i) (0, nxt 1 n i) ∧ L .c0 (0, i) (0, nxt 1 n i) := fun i h1 h2 =>
    link_step (mem _ _ h1 h2) (mem _ _ (hq i h1 h2).1 (hq i h1 h2).2) (by simp [cylTriV, triEdges]) (by simp [cylTriV, triEdges])
  have h11 : ∀ i, 1 ≤ i → i ≤ n → L (.t (botOf n (nxt 1 n i))) (1, i) (1, nxt 1 n i) ∧ L .c1 (1, i) (1, nxt 1 n i) := fun i h1 h2 =>
    link_step (mem _ _ h1 h2) (mem _ _ (hq i h1 h2).1 (hq i h1 h2).2) (by simp [cylTriV, triEdges]) (by simp [cylTriV, triEdges])
  -- the top triangle above the edge from `i` to the next point
  have htop : ∀ i, 1 ≤ i → i ≤ n → ∃ k, 1 ≤ k ∧ k ≤ n ∧ botOf n k = nxt 1 n i ∧ botOf n (nxt 1 n k) = i := by
    intro i h1 h2
    have a1 := nxt_spec 1 n i
    refine ⟨botOf n (nxt 1 n i), ?_⟩
    have a2 := botOf_spec n (nxt 1 n i)
    have a3 := botOf_spec n (botOf n (nxt 1 n i))
    have a4 := nxt_spec 1 n (botOf n (nxt 1 n i))
    have a5 := botOf_spec n (nxt 1 n (botOf n (nxt 1 n i)))
    omega
  have h31 : ∀ i k, 1 ≤ i → i ≤ n → 1 ≤ k → k ≤ n → botOf n k = nxt 1 n i → botOf n (nxt 1 n k) = i →
      L (.t i) (3, i) (1, k) ∧ L (.t (nxt 1 n i)) (3, i) (1, k) := fun i k h1 h2 h3 h4 e1 e2 =>
    link_step (mem _ _ h1 h2) (mem _ _ h3 h4) (by simp [cylTriV, triEdges]) (by simp [cylTriV, triEdges, e1, e2])
  have hbb : ∀ k, 1 ≤ k → k ≤ n → 1 ≤ botOf n k ∧ botOf n k ≤ n ∧ botOf n (botOf n k) = k := by
    intro k _ _
    have a2 := botOf_spec n k
    have a3 := botOf_spec n (botOf n k)
    omega
  have hprev : ∀ i, 1 ≤ i → i ≤ n → ∃ p, 1 ≤ p ∧ p ≤ n ∧ nxt 1 n p = i := by
    intro i h1 h2
    by_cases h : i = 1
    · exact ⟨n, by omega, le_rfl, by simp [nxt, h]⟩
    · refine ⟨i - 1, by omega, by omega, ?_⟩
      have := nxt_spec 1 n (i - 1); omega
  have e : ∀ i, i < n → nxt 1 n i = i + 1 := by intro i _; have := nxt_spec 1 n i; omega
  have c0 := link_chain (fun i => ((0 : Fin 4), i)) (s := 1) (e := n) (ids := cylIds n) (tri := cylTriV n) (v := .c0)
    fun i h1 h2 => by have := (h00 i h1 h2.le).2; rwa [e i h2] at this
  have c1 := link_chain (fun i => ((1 : Fin 4), i)) (s := 1) (e := n) (ids := cylIds n) (tri := cylTriV n) (v := .c1)
    fun i h1 h2 => by have := (h11 i h1 h2.le).2; rwa [e i h2] at this
  constructor
  · apply onePiece_of_ids (0, 1)
    rintro ⟨b, i⟩ hx
    have hi := cylIds_mem.1 hx
    dsimp only at hi
    have w0 : ∀ i, 1 ≤ i → i ≤ n → Walk (cylIds n) (cylTriV n) (0, 1) (0, i) := fun i h1 h2 => (c0 i h1 h2).walk
    have w2 : ∀ i, 1 ≤ i → i ≤ n → Walk (cylIds n) (cylTriV n) (0, 1) (2, i) := fun i h1 h2 => (w0 i h1 h2).trans (h02 i h1 h2).1.walk
    have w3 : ∀ i, 1 ≤ i → i ≤ n → Walk (cylIds n) (cylTriV n) (0, 1) (3, i) := fun i h1 h2 => (w2 i h1 h2).trans (h23 i h1 h2).1.walk
    fin_cases b
    · exact w0 i hi.1 hi.2
    · obtain ⟨b1, b2, b3⟩ := hbb i hi.1 hi.2
      obtain ⟨p, p1, p2, p3⟩ := hprev (botOf n i) b1 b2
      refine (w3 p p1 p2).trans (h31 p i p1 p2 hi.1 hi.2 p3.symm ?_).1.walk
      obtain ⟨k, k1, k2, k3, k4⟩ := htop p p1 p2
      have : k = i := by rw [← (hbb k k1 k2).2.2, k3, p3, b3]
      rw [← this, k4]
    · exact w2 i hi.1 hi.2
    · exact w3 i hi.1 hi.2
  · -- the neighbour across the top rim
    have hnb : ∀ i, 1 ≤ i → i ≤ n → ∃ k, 1 ≤ k ∧ k ≤ n ∧ botOf n k = i ∧
        ∀ p, 1 ≤ p → p ≤ n → nxt 1 n p = i → botOf n (nxt 1 n k) = p := by
      intro i h1 h2
      obtain ⟨b1, b2, b3⟩ := hbb i h1 h2
      refine ⟨botOf n i, b1, b2, b3, ?_⟩
      rintro p p1 p2 rfl
      obtain ⟨k, k1, k2, k3, k4⟩ := htop p p1 p2
      have : k = botOf n (nxt 1 n p) := by rw [← (hbb k k1 k2).2.2, k3]
      rw [← this, k4]
    intro v
    by_cases hv : v = .c0 ∨ v = .c1 ∨ (∃ i, v = .b i ∧ 1 ≤ i ∧ i ≤ n) ∨ ∃ i, v = .t i ∧ 1 ≤ i ∧ i ≤ n
    swap
    · apply oneFan_of_ids (0, 1)
      intro x hx c hc
      exfalso
      apply hv
      obtain ⟨b, i⟩ := x
      have hi := cylIds_mem.1 hx
      dsimp only at hi
      have hqi := hq i hi.1 hi.2
      obtain ⟨b1, b2, _⟩ := hbb i hi.1 hi.2
      obtain ⟨b3, b4, _⟩ := hbb _ hqi.1 hqi.2
      fin_cases b <;> simp [cylTriV, triEdges] at hc <;> rcases hc with h | h | h <;> obtain ⟨rfl, _⟩ := h <;> simp [hqi, hi, b1, b2, b3, b4]
    rcases hv with rfl | rfl | ⟨i, rfl, hi1, hi2⟩ | ⟨i, rfl, hi1, hi2⟩
    · apply oneFan_of_ids (0, 1)
      rintro ⟨b, j⟩ hx c hc
      have hi := cylIds_mem.1 hx
      fin_cases b <;> simp [cylTriV, triEdges] at hc
      exact c0 j hi.1 hi.2
    · apply oneFan_of_ids (1, 1)
      rintro ⟨b, j⟩ hx c hc
      have hi := cylIds_mem.1 hx
      fin_cases b <;> simp [cylTriV, triEdges] at hc
      exact c1 j hi.1 hi.2
    · apply oneFan_of_ids (0, i)
      rintro ⟨b, j⟩ hx c hc
      have hj := cylIds_mem.1 hx
      dsimp only at hj
      have hij : i = j ∧ b ≠ 3 ∨ i = nxt 1 n j := by
        fin_cases b <;> simp [cylTriV, triEdges] at hc ⊢ <;> tauto
      have hb1 : b ≠ 1 := by rintro rfl; simp [cylTriV, triEdges] at hc
      rcases hij with ⟨rfl, hb3⟩ | rfl
      · fin_cases b
        · exact .refl
        · exact absurd rfl hb1
        · exact (h02 i hi1 hi2).1
        · exact absurd rfl hb3
      · have s0 := (h00 j hj.1 hj.2).1.symm
        have s2 := s0.trans (h02 j hj.1 hj.2).2
        fin_cases b
        · exact s0
        · exact absurd rfl hb1
        · exact s2
        · exact s2.trans (h23 j hj.1 hj.2).2
    · apply oneFan_of_ids (2, i)
      rintro ⟨b, j⟩ hx c hc
      have hj := cylIds_mem.1 hx
      dsimp only at hj
      obtain ⟨p, p1, p2, rfl⟩ := hprev i hi1 hi2
      obtain ⟨k, k1, k2, k3, k4⟩ := htop p p1 p2
      have s3 := (h32 p p1 p2).1.symm
      have s1 := s3.trans (h31 p k p1 p2 k1 k2 k3 k4).2
      have s3' := (h23 _ hi1 hi2).1
      obtain ⟨l, l1, l2, l3, l4⟩ := htop (nxt 1 n p) hi1 hi2
      have s1' := s3'.trans (h31 _ l hi1 hi2 l1 l2 l3 l4).1
      have hbj := hbb j hj.1 hj.2
      have hqj := hq j hj.1 hj.2
      fin_cases b
      · simp [cylTriV, triEdges] at hc
      · simp [cylTriV, triEdges] at hc
        rcases hc with ⟨h, _⟩ | ⟨h, _⟩
        · have : k = j := by rw [← (hbb k k1 k2).2.2, k3, h, hbj.2.2]
          rw [← this]; exact s1
        · have : nxt 1 n l = nxt 1 n j := by
            have hql := hq l l1 l2
            rw [← (hbb _ hql.1 hql.2).2.2, l4, h, (hbb _ hqj.1 hqj.2).2.2]
          have : l = j := by
            have a1 := nxt_spec 1 n l
            have a2 := nxt_spec 1 n j
            omega
          rw [← this]; exact s1'
      · simp [cylTriV, triEdges] at hc
        rw [← hc.1]; exact .refl
      · simp [cylTriV, triEdges] at hc
        rcases hc with ⟨h, _⟩ | ⟨h, _⟩
        · rw [← h]; exact s3'
        · have : p = j := by
            have a1 := nxt_spec 1 n p
            have a2 := nxt_spec 1 n j
            omega
          rw [← this]; exact s3
theorem cylIdx_manifold {n : ℕ} (hn : 2 ≤ n) : Manifold (triples (cylIdx n)) := by
  have e : triples (cylIdx n) = ((cylIds n).map (cylTriV n)).map (mapTriangle (cylNum n)) := by
    rw [cylIdx_triples, List.map_map]
    exact List.map_congr_left fun x hx => cylTri_eq hx
  rw [e]
  have hv : ∀ v ∈ corners ((cylIds n).map (cylTriV n)),
      v = .c0 ∨ v = .c1 ∨ (∃ i, v = .b i ∧ 1 ≤ i ∧ i ≤ n) ∨ ∃ i, v = .t i ∧ 1 ≤ i ∧ i ≤ n := by
    intro v hv
    rw [corners, List.mem_flatMap] at hv
    obtain ⟨t, ht, hv⟩ := hv
    obtain ⟨x, hx, rfl⟩ := List.mem_map.1 ht
    exact cylTriV_corner hn hx v hv
  exact (cylTriV_manifold (by omega)).renamed _ fun a ha b hb h => cylNum_inj (hv a ha) (hv b hb) h

/-! ### Spheres -/

theorem sphTriV_manifold {p n : ℕ} (hp : 2 ≤ p) (hn : 1 ≤ n) : Manifold ((sphIds p n).map (sphTriV p n)) := by
  set L := Link (sphIds p n) (sphTriV p n) with hL
  have step : ∀ x y a b, x ∈ sphIds p n → y ∈ sphIds p n → (a, b) ∈ triEdges (sphTriU p n x) → (b, a) ∈ triEdges (sphTriU p n y) →
      L a x y ∧ L b x y := fun x y a b hx hy h h' => link_step hx hy ((sphTriV_edges p n x _).2 h) ((sphTriV_edges p n y _).2 h')
  have m0 : ∀ j, j < n → ((0 : Fin 4), 0, j) ∈ sphIds p n := fun j h => (sphIds_mem hn).2 (by simp; omega)
  have m1 : ∀ j, j < n → ((1 : Fin 4), 0, j) ∈ sphIds p n := fun j h => (sphIds_mem hn).2 (by simp; omega)
  have m2 : ∀ i j, j < n → 1 ≤ i → i ≤ p - 2 → ((2 : Fin 4), i, j) ∈ sphIds p n := fun i j h h1 h2 => (sphIds_mem hn).2 (by simp; omega)
  have m3 : ∀ i j, j < n → 1 ≤ i → i ≤ p - 2 → ((3 : Fin 4), i, j) ∈ sphIds p n := fun i j h h1 h2 => (sphIds_mem hn).2 (by simp; omega)
  have hpv : ∀ j, j < n → pv n j < n := by intro j h; have := pv_spec n j; omega
  -- the triangles above and below the edge from `g i j` to the point before
  set A : ℕ → ℕ → Fin 4 × ℕ × ℕ := fun i j => if i = 0 then (0, 0, j) else (3, i, j) with hA
  set B : ℕ → ℕ → Fin 4 × ℕ × ℕ := fun i j => if i = p - 2 then (1, 0, j) else (2, i + 1, j) with hB
  have mA : ∀ i j, j < n → i ≤ p - 2 → A i j ∈ sphIds p n := by
    intro i j h h'
    by_cases hi : i = 0
    · simpa [hA, hi] using m0 j h
    · simpa [hA, hi] using m3 i j h (by omega) h'
  have mB : ∀ i j, j < n → i ≤ p - 2 → B i j ∈ sphIds p n := by
    intro i j h h'
    by_cases hi : i = p - 2
    · simpa [hB, hi] using m1 j h
    · simpa [hB, hi] using m2 (i + 1) j h (by omega) (by omega)
  have hAB : ∀ i j, j < n → i ≤ p - 2 → L (.g i j) (A i j) (B i j) ∧ L (.g i (pv n j)) (A i j) (B i j) := by
    intro i j h h'
    apply step _ _ _ _ (mA i j h h') (mB i j h h')
    · by_cases hi : i = 0
      · simp [hA, hi, sphTriU, triEdges]
      · simp [hA, hi, sphTriU, triEdges]
    · by_cases hi : i = p - 2
      · simp [hB, hi, sphTriU, triEdges]
      · simp [hB, hi, sphTriU, triEdges]
  have h00 : ∀ j, j < n → L .top (0, 0, j) (0, 0, pv n j) ∧ L (.g 0 (pv n j)) (0, 0, j) (0, 0, pv n j) := by
    intro j h
    have := step (0, 0, j) (0, 0, pv n j) (.g 0 (pv n j)) .top (m0 j h) (m0 _ (hpv j h)) (by simp [sphTriU, triEdges]) (by simp [sphTriU, triEdges])
    exact this.symm
  have h11 : ∀ j, j < n → L .bot (1, 0, j) (1, 0, pv n j) ∧ L (.g (p - 2) (pv n j)) (1, 0, j) (1, 0, pv n j) := by
    intro j h
    exact step (1, 0, j) (1, 0, pv n j) .bot (.g (p - 2) (pv n j)) (m1 j h) (m1 _ (hpv j h)) (by simp [sphTriU, triEdges]) (by simp [sphTriU, triEdges])
  have h23 : ∀ i j, j < n → 1 ≤ i → i ≤ p - 2 → L (.g (i - 1) j) (2, i, j) (3, i, j) ∧ L (.g i (pv n j)) (2, i, j) (3, i, j) := by
    intro i j h h1 h2
    exact step _ _ _ _ (m2 i j h h1 h2) (m3 i j h h1 h2) (by simp [sphTriU, triEdges]) (by simp [sphTriU, triEdges])
  have h2p : ∀ i j, j < n → 1 ≤ i → i ≤ p - 2 → L (.g i (pv n j)) (2, i, j) (3, i, pv n j) ∧ L (.g (i - 1) (pv n j)) (2, i, j) (3, i, pv n j) := by
    intro i j h h1 h2
    exact step _ _ _ _ (m2 i j h h1 h2) (m3 i _ (hpv j h) h1 h2) (by simp [sphTriU, triEdges]) (by simp [sphTriU, triEdges])
  have hpv1 : ∀ j, pv n (j + 1) = j := by intro j; simp [pv]
  have c0 := link_chain (fun j => ((0 : Fin 4), 0, j)) (s := 0) (e := n - 1) (ids := sphIds p n) (tri := sphTriV p n) (v := .top)
    fun j _ h => by have := (h00 (j + 1) (by omega)).1.symm; rwa [hpv1] at this
  have c1 := link_chain (fun j => ((1 : Fin 4), 0, j)) (s := 0) (e := n - 1) (ids := sphIds p n) (tri := sphTriV p n) (v := .bot)
    fun j _ h => by have := (h11 (j + 1) (by omega)).1.symm; rwa [hpv1] at this
  constructor
  · apply onePiece_of_ids (0, 0, 0)
    have wA : ∀ j, j < n → ∀ i, i ≤ p - 2 → Walk (sphIds p n) (sphTriV p n) (0, 0, 0) (A i j) ∧
        Walk (sphIds p n) (sphTriV p n) (0, 0, 0) (B i j) := by
      intro j hj i
      induction i with
      | zero =>
        intro h
        have w : Walk (sphIds p n) (sphTriV p n) (0, 0, 0) (A 0 j) := by simpa [hA] using (c0 j (by omega) (by omega)).walk
        exact ⟨w, w.trans (hAB 0 j hj h).1.walk⟩
      | succ i ih =>
        intro h
        have hb := (ih (by omega)).2
        have e : B i j = (2, i + 1, j) := by simp only [hB]; rw [if_neg (by omega)]
        rw [e] at hb
        have w : Walk (sphIds p n) (sphTriV p n) (0, 0, 0) (A (i + 1) j) := by
          simpa [hA] using hb.trans (h23 (i + 1) j hj (by omega) h).1.walk
        exact ⟨w, w.trans (hAB (i + 1) j hj h).1.walk⟩
    rintro ⟨k, i, j⟩ hx
    have hx := (sphIds_mem hn).1 hx
    dsimp only at hx
    obtain ⟨hj, hx⟩ := hx
    fin_cases k
    · simp at hx; subst hx
      simpa [hA] using (wA j hj 0 (by omega)).1
    · simp at hx; subst hx
      simpa [hB] using (wA j hj (p - 2) le_rfl).2
    · simp at hx
      have := (wA j hj (i - 1) (by omega)).2
      simp only [hB] at this
      rwa [if_neg (by omega), show i - 1 + 1 = i by omega] at this
    · simp at hx
      have := (wA j hj i (by omega)).1
      simp only [hA] at this
      rwa [if_neg (by omega)] at this
  · intro v
    cases v with
    | top =>
      apply oneFan_of_ids (0, 0, 0)
      rintro ⟨k, i, j⟩ hx c hc
      rw [sphTriV_edges] at hc
      have hx := (sphIds_mem hn).1 hx
      fin_cases k <;> simp [sphTriU, triEdges] at hc hx
      obtain ⟨hj, rfl⟩ := hx
      exact c0 j (by omega) (by omega)
    | bot =>
      apply oneFan_of_ids (1, 0, 0)
      rintro ⟨k, i, j⟩ hx c hc
      rw [sphTriV_edges] at hc
      have hx := (sphIds_mem hn).1 hx
      fin_cases k <;> simp [sphTriU, triEdges] at hc hx
      obtain ⟨hj, rfl⟩ := hx
      exact c1 j (by omega) (by omega)
    | g i j =>
      apply oneFan_of_ids (A i j)
      by_cases hok : i ≤ p - 2 ∧ j < n
      swap
      · rintro ⟨k, i', j'⟩ hx c hc
        rw [sphTriV_edges] at hc
        have hx := (sphIds_mem hn).1 hx
        have := pv_spec n j'
        exfalso
        fin_cases k <;> simp [sphTriU, triEdges] at hc hx <;> omega
      obtain ⟨hi, hj⟩ := hok
      -- the column whose edges end in `g i j`
      have hcol : ∀ q, q < n → pv n q = j → L (.g i j) (A i j) (A i q) ∧ (1 ≤ i → L (.g i j) (A i j) (2, i, q)) ∧
          L (.g i j) (A i j) (B i q) ∧ (i < p - 2 → L (.g i j) (A i j) (3, i + 1, j)) := by
        rintro q hq rfl
        have a1 : L (.g i (pv n q)) (A i (pv n q)) (A i q) ∧ (1 ≤ i → L (.g i (pv n q)) (A i (pv n q)) (2, i, q)) := by
          by_cases h0 : i = 0
          · subst h0
            exact ⟨by simpa [hA] using (h00 q hq).2.symm, fun h => by omega⟩
          · have s := (h2p i q hq (by omega) hi).1.symm
            have s' := s.trans (h23 i q hq (by omega) hi).2
            have e : ∀ j, A i j = (3, i, j) := fun j => by simp [hA, h0]
            rw [e, e]
            exact ⟨s', fun _ => s⟩
        refine ⟨a1.1, a1.2, a1.1.trans (hAB i q hq hi).2, fun h => ?_⟩
        have s := (hAB i _ hj hi).1
        have e : B i (pv n q) = (2, i + 1, pv n q) := by simp only [hB]; rw [if_neg (by omega)]
        rw [e] at s
        exact s.trans (h23 (i + 1) _ hj (by omega) (by omega)).1
      obtain ⟨q, hq, hqj⟩ : ∃ q, q < n ∧ pv n q = j := by
        by_cases h : j = n - 1
        · exact ⟨0, by omega, by simp [pv, h]⟩
        · exact ⟨j + 1, by omega, by simp [pv]⟩
      have quniq : ∀ q', q' < n → j = pv n q' → q' = q := by
        intro q' h h'
        have := pv_spec n q
        have := pv_spec n q'
        omega
      obtain ⟨r1, r2, r3, r4⟩ := hcol q hq hqj
      have r5 := (hAB i j hj hi).1
      rintro ⟨k, i', j'⟩ hx c hc
      rw [sphTriV_edges] at hc
      have hx := (sphIds_mem hn).1 hx
      dsimp only at hx
      obtain ⟨hj', hx⟩ := hx
      fin_cases k
      · simp at hx; subst hx
        simp [sphTriU, triEdges] at hc
        rcases hc with ⟨⟨rfl, rfl⟩, _⟩ | ⟨⟨rfl, h⟩, _⟩
        · exact .refl
        · rw [quniq j' hj' h]; exact r1
      · simp at hx; subst hx
        simp [sphTriU, triEdges] at hc
        rcases hc with ⟨⟨rfl, rfl⟩, _⟩ | ⟨⟨rfl, h⟩, _⟩
        · simpa [hB] using r5
        · rw [quniq j' hj' h]; simpa [hB] using r3
      · simp at hx
        simp [sphTriU, triEdges] at hc
        rcases hc with ⟨⟨rfl, rfl⟩, _⟩ | ⟨⟨rfl, h⟩, _⟩ | ⟨⟨rfl, h⟩, _⟩
        · simp only [hB] at r5
          rwa [if_neg (by omega), show i' - 1 + 1 = i' by omega] at r5
        · rw [quniq j' hj' h]; exact r2 hx.1
        · rw [quniq j' hj' h]
          simp only [hB] at r3
          rwa [if_neg (by omega), show i' - 1 + 1 = i' by omega] at r3
      · simp at hx
        have eA : A i' = fun j => (3, i', j) := by funext j; simp only [hA]; rw [if_neg (by omega)]
        simp [sphTriU, triEdges] at hc
        rcases hc with ⟨⟨rfl, h⟩, _⟩ | ⟨⟨rfl, rfl⟩, _⟩ | ⟨⟨rfl, rfl⟩, _⟩
        · rw [quniq j' hj' h]; rw [eA] at r1 ⊢; exact r1
        · have := r4 (by omega)
          rwa [show i' - 1 + 1 = i' by omega] at this
        · rw [eA]; exact .refl

theorem sphIdx_manifold {p n : ℕ} (hp : 2 ≤ p) (hn : 1 ≤ n) : Manifold (triples (sphIdx p n)) := by
  have e : triples (sphIdx p n) = ((sphIds p n).map (sphTriV p n)).map (mapTriangle (sphNum p n)) := by
    rw [sphIdx_triples, List.map_map]; rfl
  rw [e]
  have hv : ∀ v ∈ corners ((sphIds p n).map (sphTriV p n)), SphOk p n v := by
    intro v hv
    rw [corners, List.mem_flatMap] at hv
    obtain ⟨t, ht, hv⟩ := hv
    obtain ⟨x, hx, rfl⟩ := List.mem_map.1 ht
    obtain ⟨h1, h2, h3⟩ := sphTriU_ok hp hx (by omega)
    simp only [List.mem_cons, List.not_mem_nil, or_false] at hv
    rcases hv with rfl | rfl | rfl <;> assumption
  exact (sphTriV_manifold hp hn).renamed _ fun a ha b hb h => sphNum_inj (hv a ha) (hv b hb) h

/-! ### Cuboids -/

/-- Everything that can be reached from `seen` in `k` rounds. -/
def reach {ι : Type} [DecidableEq ι] (ids : List ι) (r : ι → ι → Bool) : ℕ → List ι → List ι
  | 0, seen => seen
  | k + 1, seen => reach ids r k (seen ++ ids.filter fun y => y ∉ seen ∧ seen.any fun x => r x y)

theorem reach_sound {ι : Type} [DecidableEq ι] {ids : List ι} {r : ι → ι → Bool} {R : ι → ι → Prop} (hR : ∀ x y, y ∈ ids → r x y = true → R x y)
    (x0 : ι) : ∀ (k : ℕ) (seen : List ι), (∀ y ∈ seen, Relation.ReflTransGen R x0 y) → ∀ y ∈ reach ids r k seen, Relation.ReflTransGen R x0 y := by
  intro k
  induction k with
  | zero => intro seen h; exact h
  | succ k ih =>
    intro seen h
    apply ih
    intro y hy
    rcases List.mem_append.1 hy with hy | hy
    · exact h y hy
    · simp only [List.mem_filter, decide_eq_true_eq, List.any_eq_true] at hy
      obtain ⟨hy, _, x, hx, hr⟩ := hy
      exact (h x hx).tail (hR x y hy hr)

def edgeAtB {V : Type} [DecidableEq V] (v : V) (t t' : V × V × V) : Bool :=
  (triEdges t).any fun e => (e.1 = v ∨ e.2 = v) ∧ e.swap ∈ triEdges t'

theorem edgeAtB_sound {V : Type} [DecidableEq V] {v : V} {t t' : V × V × V} (h : edgeAtB v t t' = true) : EdgeAt v t t' := by
  simp only [edgeAtB, List.any_eq_true, decide_eq_true_eq] at h
  obtain ⟨⟨a, b⟩, he, h | h, h'⟩ := h
  · dsimp only at h; subst h
    exact ⟨b, .inl ⟨by rwa [edgesOf_eq], by rwa [edgesOf_eq]⟩⟩
  · dsimp only at h; subst h
    exact ⟨a, .inr ⟨by rwa [edgesOf_eq], by rwa [edgesOf_eq]⟩⟩

theorem manifold_of_check {V : Type} [DecidableEq V] (vs : List V) (ts : List (V × V × V)) (k : ℕ)
    (h1 : ∀ t ∈ ts, ∀ t' ∈ ts, t' ∈ reach ts (fun x y => vs.any fun v => edgeAtB v x y) k [t])
    (h2 : ∀ v ∈ vs, ∀ t ∈ ts, ∀ t' ∈ ts, v ∈ corners [t] → v ∈ corners [t'] → t' ∈ reach ts (fun x y => edgeAtB v x y) k [t])
    (hvs : ∀ v ∈ corners ts, v ∈ vs) : Manifold ts := by
  constructor
  · intro t ht t' ht'
    refine reach_sound (fun x y hy h => ⟨hy, ?_⟩) t k [t] (by simpa using .refl) t' (h1 t ht t' ht')
    simp only [List.any_eq_true] at h
    obtain ⟨v, _, h⟩ := h
    exact ⟨v, edgeAtB_sound h⟩
  · intro v t ht t' ht' hv hv'
    refine reach_sound (fun x y hy h => ⟨hy, edgeAtB_sound h⟩) t k [t] (by simpa using .refl) t' (h2 v (hvs v ?_) t ht t' ht' hv hv')
    exact List.mem_flatMap.2 ⟨t, ht, by simpa [corners] using hv⟩

theorem cubeTris_manifold : Manifold cubeTris :=
  manifold_of_check edgeChoices cubeTris 12 (by decide +kernel) (by decide +kernel) (by decide +kernel)

/-! ### The meshes -/
section
variable [BEq (HMat ℝ)] [LawfulBEq (HMat ℝ)] [BEq (Vec ℝ 3)] [LawfulBEq (Vec ℝ 3)]

theorem manifold_build (dbg : Bool) (M w : Nat) (trafo : HMat ℝ) (points : List (Vec ℝ 3)) (idx : List Nat) (hM : idx.length < M)
    (m : HalfedgeMesh (Vec ℝ 3)) (hm : buildTriangleHalfedgeMesh dbg M w trafo points idx = .ok m)
    (hnd : points.Nodup) (hinj : Function.Injective fun p => transformVec p trafo) (h : Manifold (triples idx)) :
    ∃ ts, Reads m ts ∧ Manifold ts := by
  rcases build_cases dbg M w trafo points idx (by omega) (by rintro rfl; exact build_debug_pre hm) with ⟨hi, he⟩ | ⟨_, he⟩
  swap
  · rw [he] at hm; simp at hm
  rw [he] at hm
  have hl := bufferTriangles_length trafo points idx
  have hM' : 3 * (bufferTriangles trafo points idx).length < M := by omega
  obtain ⟨m', hm', hb⟩ := C48_build_succeeds dbg M w (bufferTriangles trafo points idx) hM'
  rw [hm, Except.ok.injEq] at hm'
  subst hm'
  refine ⟨_, reads_of_built dbg M _ hM' m hb, ?_⟩
  have e : bufferTriangles trafo points idx =
      ((triples idx).map reversed).map (mapTriangle fun i => transformVec (points.getD i 0) trafo) := by
    rw [bufferTriangles, List.map_map]; rfl
  have hlt : ∀ i, i ∈ corners ((triples idx).map reversed) → i < points.length := by
    intro i h
    obtain ⟨t, ht, h⟩ := List.mem_flatMap.1 h
    obtain ⟨t', ht', rfl⟩ := List.mem_map.1 ht
    obtain ⟨h1, h2, h3⟩ := hi t' ht'
    simp only [reversed, List.mem_cons, List.not_mem_nil, or_false] at h
    rcases h with rfl | rfl | rfl <;> assumption
  rw [e]
  refine h.turned.renamed _ fun a ha b hb e => ?_
  have ha := hlt a ha
  have hb := hlt b hb
  have e := hinj e
  rw [List.getD_eq_getElem?_getD, List.getD_eq_getElem?_getD, List.getElem?_eq_getElem ha, List.getElem?_eq_getElem hb] at e
  exact (hnd.getElem_inj_iff).1 e

/-- **C89** (spheres) For all counts and every sphere with a nonzero radius the triangles of the mesh form one connected piece, and around every
point one fan. -/
theorem C89_sphere (dbg : Bool) (M w : Nat) (b : SphereBuilder ℝ) (hp : 2 ≤ b.polarCount) (hn : 3 ≤ b.azimuthCount)
    (hM : 6 * b.azimuthCount * (b.polarCount - 1) < M) (hr : b.theSphere.radius ≠ 0) :
    ∃ m b' ts, b.build dbg M w = .ok (m, b') ∧ Reads m ts ∧ OnePiece ts ∧ ∀ v, OneFan ts v := by
  obtain ⟨m, b', hm⟩ := C58_in_range dbg M w b hp (by omega) hM
  have hmi := sphere_build_inner dbg M w b hp hn hM hm
  obtain ⟨ts, h1, h2⟩ := manifold_build dbg M w hmatIdentity _ _ (by rw [sphIdx_length hp (by omega)]; exact hM) m hmi (sphPoints_nodup _ hr _ _)
    (fun p q h => by simpa only [C62_identity] using h) (sphIdx_manifold hp (by omega))
  exact ⟨m, b', ts, hm, h1, h2.1, h2.2⟩

/-- **C89** (cones) -/
theorem C89_cone [Tol ℝ] [LawfulTol ℝ] (dbg : Bool) (M w : Nat) (rotAlign : Vec ℝ 4 → Vec ℝ 4 → HMat ℝ) (cone : Cone ℝ) (n : Nat)
    (hn : 3 ≤ n) (hM : 6 * n + 1 < M) (hr : cone.radius ≠ 0) (hseg : cone.segment.source ≠ cone.segment.target)
    (hz : dbg = true → isZero cone.segment.length = false)
    (hrot : RotatesZTo (rotAlign (hvec4 0 0 1 1) (toHvec cone.segment.direction)) cone.segment.direction) :
    ∃ m ts, coneBuild dbg M w rotAlign (some cone) n = .ok (some m) ∧ Reads m ts ∧ OnePiece ts ∧ ∀ v, OneFan ts v := by
  obtain ⟨A, hA, _, hz', htr⟩ := placed hrot
  obtain ⟨m, hm⟩ := C56_in_range dbg M w rotAlign cone n hM hseg hz
  have hm' := hm
  rw [coneBuild_eq dbg M w rotAlign cone n (by omega) hseg hz] at hm
  have hm := of_map_some hm
  obtain ⟨ts, h1, h2⟩ := manifold_build dbg M w _ _ _ (by rw [coneIdx_length]; omega) m hm
    (conePoints_nodup hr (segment_length_pos hseg).ne' n)
    (by
      rw [show (fun p => transformVec p (hmatSetTranslation (rotAlign (hvec4 0 0 1 1) (toHvec cone.segment.direction))
        cone.segment.source)) = affine A cone.segment.source from funext htr]
      exact hA.injective _) (by rw [coneIdx_triples]; exact coneTri_manifold (by omega))
  exact ⟨m, ts, hm', h1, h2.1, h2.2⟩

/-- **C89** (cylinders) -/
theorem C89_cylinder (dbg : Bool) (M w : Nat) (rotAlign : Vec ℝ 4 → Vec ℝ 4 → HMat ℝ) (cyl : Cylinder ℝ) (n : Nat)
    (hn : 3 ≤ n) (hM : 12 * n < M) (hr : cyl.radius ≠ 0) (hseg : cyl.segment.source ≠ cyl.segment.target)
    (hrot : RotatesZTo (rotAlign (hvec4 0 0 1 1) (toHvec cyl.segment.direction)) cyl.segment.direction) :
    ∃ m ts, cylinderBuild dbg M w rotAlign (some cyl) n = .ok (some m) ∧ Reads m ts ∧ OnePiece ts ∧ ∀ v, OneFan ts v := by
  obtain ⟨A, hA, _, hz', htr⟩ := placed hrot
  obtain ⟨m, hm⟩ := C57_in_range_partial dbg M w rotAlign cyl n (by omega) hM
  have hm' := hm
  rw [cylinderBuild_eq dbg M w rotAlign cyl n (by omega) (by omega)] at hm
  have hm := of_map_some hm
  obtain ⟨ts, h1, h2⟩ := manifold_build dbg M w _ _ _ (by rw [cylIdx_length]; omega) m hm
    (cylPoints_nodup hr (segment_length_pos hseg).ne' n)
    (by
      rw [show (fun p => transformVec p (hmatSetTranslation (rotAlign (hvec4 0 0 1 1) (toHvec cyl.segment.direction))
        cyl.segment.source)) = affine A cyl.segment.source from funext htr]
      exact hA.injective _) (cylIdx_manifold (by omega))
  exact ⟨m, ts, hm', h1, h2.1, h2.2⟩

/-- **C89** (cuboids) -/
theorem C89_cuboid (dbg : Bool) (M w : Nat) (b : CuboidBuilder ℝ) (hM : 36 < M) (hi : LinearIndependent ℝ b.theCuboid.sides) :
    ∃ m b' ts, b.build dbg M w = .ok (m, b') ∧ Reads m ts ∧ OnePiece ts ∧ ∀ v, OneFan ts v := by
  obtain ⟨m, b', hm, _⟩ := C59_cuboid dbg M w b hM hi
  have hM' : 3 * (cuboidTriangles b.theCuboid).length < M := by rw [cuboidTriangles_length]; omega
  obtain ⟨m', hm', hb, _, _, _, he⟩ := cuboid_build dbg M w b hM
  have : m' = m := by
    rw [hm] at he
    split at he
    · exact nomatch he
    · exact (Prod.mk.inj (Except.ok.inj he)).1.symm
  subst this
  obtain ⟨hnd, _⟩ := C68_distinct b.theCuboid hi
  have hinj : ∀ x y, corner b.theCuboid.origin b.theCuboid.sides x = corner b.theCuboid.origin b.theCuboid.sides y → x = y := by
    have := (C68_corners b.theCuboid).nodup_iff.1 hnd
    rw [List.nodup_map_iff_inj_on (by decide +kernel)] at this
    exact fun x y h => this x (C68_all_choices x) y (C68_all_choices y) h
  refine ⟨m', b', _, hm, reads_of_built dbg M _ hM' m' hb, ?_⟩
  rw [cuboidTriangles_eq]
  exact cubeTris_manifold.renamed _ fun x _ y _ h => hinj x y h
end

section Examples
attribute [local instance] realTol realTol_lawful

/-- Two tetrahedra that touch in the corner `0`. -/
def pinched : List (Fin 7 × Fin 7 × Fin 7) := [(0, 2, 1), (0, 1, 3), (1, 2, 3), (0, 3, 2), (0, 5, 4), (0, 4, 6), (4, 5, 6), (0, 6, 5)]

/-- The notions are not empty: the surface of two tetrahedra touching in a corner is closed and oriented, but neither connected nor one fan there. -/
example : ClosedOriented pinched ∧ ¬OnePiece pinched ∧ ¬OneFan pinched 0 := by
  have inv : ∀ x y : Fin 7 × Fin 7 × Fin 7, x ∈ pinched → y ∈ pinched → (∃ v, EdgeAt v x y) → x ∈ pinched.take 4 → y ∈ pinched.take 4 := by
    rintro x y hx hy ⟨v, b, h⟩ h4
    have k : ∀ x ∈ pinched.take 4, ∀ y ∈ pinched, ∀ e ∈ triEdges x, e.swap ∈ triEdges y → y ∈ pinched.take 4 := by decide +kernel
    simp only [edgesOf_eq] at h
    rcases h with h | h
    · exact k x h4 y hy _ h.1 h.2
    · exact k x h4 y hy _ h.1 h.2
  have inv' : ∀ {r : Fin 7 × Fin 7 × Fin 7 → Fin 7 × Fin 7 × Fin 7 → Prop}, (∀ x y, r x y → y ∈ pinched ∧ ∃ v, EdgeAt v x y) → ∀ x y,
      Relation.ReflTransGen r x y → x ∈ pinched → x ∈ pinched.take 4 → y ∈ pinched ∧ y ∈ pinched.take 4 := by
    intro r hr x y h hx hx4
    induction h with
    | refl => exact ⟨hx, hx4⟩
    | tail _ s ih => exact ⟨(hr _ _ s).1, inv _ _ ih.1 (hr _ _ s).1 (hr _ _ s).2 ih.2⟩
  refine ⟨by unfold ClosedOriented; decide +kernel, fun h => ?_, fun h => ?_⟩
  · have := h (0, 2, 1) (by decide +kernel) (0, 5, 4) (by decide +kernel)
    have := (inv' (fun x y h => h) _ _ this (by decide +kernel) (by decide +kernel)).2
    revert this; decide +kernel
  · have := h (0, 2, 1) (by decide +kernel) (0, 5, 4) (by decide +kernel) (by decide +kernel) (by decide +kernel)
    have := (inv' (fun x y h => ⟨h.1, 0, h.2⟩) _ _ this (by decide +kernel) (by decide +kernel)).2
    revert this; decide +kernel

open Classical

example : ∃ m b' ts, exSphere.build true 65536 16 = .ok (m, b') ∧ Reads m ts ∧ OnePiece ts ∧ ∀ v, OneFan ts v :=
  C89_sphere true 65536 16 exSphere (by decide) (by decide) (by decide) (by simp [exSphere, SphereBuilder.theSphere])

example : ∃ m ts, coneBuild true 256 8 rotAlignZ (some ⟨exSeg, 2⟩) 6 = .ok (some m) ∧ Reads m ts ∧ OnePiece ts ∧ ∀ v, OneFan ts v :=
  C89_cone true 256 8 rotAlignZ ⟨exSeg, 2⟩ 6 (by decide) (by decide) (by norm_num) exSeg_ne (fun _ => exSeg_nonzero) (exSeg_rot _)

example : ∃ m ts, cylinderBuild true 256 8 rotAlignZ (some ⟨exSeg, 2⟩) 6 = .ok (some m) ∧ Reads m ts ∧ OnePiece ts ∧ ∀ v, OneFan ts v :=
  C89_cylinder true 256 8 rotAlignZ ⟨exSeg, 2⟩ 6 (by decide) (by decide) (by norm_num) exSeg_ne (exSeg_rot _)

example : ∃ m b' ts, exBox.build true 256 8 = .ok (m, b') ∧ Reads m ts ∧ OnePiece ts ∧ ∀ v, OneFan ts v :=
  C89_cuboid true 256 8 exBox (by decide) exBox_independent
end Examples
end Verif
