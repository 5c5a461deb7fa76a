import Verif.Proofs.IeeeKdTree
import Verif.Props.FloatKdTree

set_option linter.unusedSectionVars false

/-
Properties C116 and C117: NaN, infinities and overflow in the k-d tree.
-/
namespace Verif
open Spec
open KdNode
namespace Ieee
variable {F : IeeeFormat} {D : Nat}

/-- The point meant by finite coordinates. -/
noncomputable def reals (v : Vec (Ieee F) D) : Fin D → ℝ := fun i => (v i).val?.getD 0

theorem reals_eq {k : ℕ} {v : Vec (Ieee F) D} (h : ∀ i, Reg k (v i)) : reals v = Fl.toReal (flOf v) := by
  funext i
  show (v i).val?.getD 0 = _
  rw [(h i).near.1.val]; rfl
end Ieee
open Ieee

section
variable {F : IeeeFormat} {D : Nat} [NeZero D] {P : Type} {w : Nat}

/-- **C116** Whatever values the coordinates have – NaN, infinities, both zeros, anything: `search` answers true exactly if a point with
equal coordinates was inserted (NaN is equal to nothing), and `insert` accepts a point exactly if there is none.  So a point with a NaN coordinate
is never found and accepted again and again, and it does not hide any other point. -/
theorem C116_search (h : List (Vec (Ieee F) D × P)) (q : Vec (Ieee F) D) (pl : P) :
    ((KdTree.build w h).search q = true ↔ ∃ e ∈ h, ∀ i, (e.1 i == q i) = true) ∧
    (((KdTree.build w h).insert q pl).2 = true ↔ ¬ ∃ e ∈ h, ∀ i, (e.1 i == q i) = true) ∧
    ((∃ i, q i = nan) → (KdTree.build w h).search q = false ∧ ((KdTree.build w h).insert q pl).2 = true) := by
  have h1 := C01_search_iff_inserted (w := w) h q
  have h2 := (C02_insert (w := w) h q pl).1
  simp only [vec_beq_iff] at h1 h2
  refine ⟨h1, h2, ?_⟩
  rintro ⟨i, hi⟩
  have hn : ¬ ∃ e ∈ h, ∀ i, (e.1 i == q i) = true := by
    rintro ⟨e, _, he⟩
    have := he i
    rw [hi, beq_nan] at this
    exact Bool.noConfusion this
  exact ⟨by rw [← Bool.not_eq_true, h1]; exact hn, h2.2 hn⟩

theorem firstEntries_cons (e : Vec (Ieee F) D × P) (h : List (Vec (Ieee F) D × P)) :
    ∃ rest, Spec.firstEntries (e :: h) = e :: rest := by
  induction h using List.reverseRecOn with
  | nil => exact ⟨[], by simp [Spec.firstEntries]⟩
  | append_singleton h e' ih =>
    obtain ⟨rest, hr⟩ := ih
    rw [← List.cons_append, Spec.firstEntries_snoc, hr]
    split_ifs
    · exact ⟨rest, rfl⟩
    · exact ⟨rest ++ [e'], rfl⟩

/-- The first point stays at the root. -/
theorem build_root (e : Vec (Ieee F) D × P) (h : List (Vec (Ieee F) D × P)) :
    ∃ l r, (KdTree.build w (e :: h)).root = .node e.1 e.2 l r := by
  induction h using List.reverseRecOn with
  | nil => exact ⟨.nil, .nil, rfl⟩
  | append_singleton h e' ih =>
    obtain ⟨l, r, hr⟩ := ih
    rw [← List.cons_append, KdTree.build_snoc]
    simp only [KdTree.insert, hr, insertHelper]
    split_ifs
    · exact ⟨_, _, rfl⟩
    · exact ⟨_, _, rfl⟩
    · exact ⟨_, _, rfl⟩

theorem mem_of_firstEntries {h : List (Vec (Ieee F) D × P)} {e} (he : e ∈ Spec.firstEntries h) : e ∈ h := by
  induction h using List.reverseRecOn with
  | nil => simp [Spec.firstEntries] at he
  | append_singleton h e' ih =>
    rw [Spec.firstEntries_snoc] at he
    split_ifs at he
    · exact List.mem_append_left _ (ih he)
    · rcases List.mem_append.1 he with he | he
      · exact List.mem_append_left _ (ih he)
      · exact List.mem_append_right _ he

/-- **C116** `nearest` ignores points with NaN or infinite coordinates, wherever they are in the tree, as long as the first inserted point has
no NaN coordinate: it returns a finite inserted point, with the payload of its first insertion, and up to the factor of C90 no finite inserted point has a
smaller squared distance.  All finite coordinates are at most `2 ^ k` in size, with `2 (k + 1) + D < emax`, and clear of underflow (C90).
Missing: trees whose first point has a NaN coordinate, see `C116_counterexample`. -/
theorem C116_nearest_partial (k : ℕ) (hk : 2 * (k + 1) + D < F.emax) (e₀ : Vec (Ieee F) D × P) (h : List (Vec (Ieee F) D × P)) (q : Vec (Ieee F) D)
    (hh : ∀ e ∈ e₀ :: h, ∀ i, (e.1 i = nan ∨ ∃ s, e.1 i = inf s) ∨ ∃ r, (e.1 i).val? = some r ∧ |r| ≤ 2 ^ k ∧ OnGrid F.prec F.emin r)
    (hq : ∀ i, ∃ r, (q i).val? = some r ∧ |r| ≤ 2 ^ k ∧ OnGrid F.prec F.emin r)
    (h₀ : ∀ i, e₀.1 i ≠ nan) (hfin : ∃ e ∈ e₀ :: h, ∀ i, ∃ r, (e.1 i).val? = some r) :
    ∃ e ∈ Spec.firstEntries (e₀ :: h), (∀ i, ∃ r, (e.1 i).val? = some r) ∧ (KdTree.build w (e₀ :: h)).nearest q = .ok e ∧
      ∀ e' ∈ e₀ :: h, (∀ i, ∃ r, (e'.1 i).val? = some r) →
        (1 - (2 : ℝ)⁻¹ ^ F.prec) ^ (D + 5) * Spec.dist (reals e.1) (reals q) ^ 2
          ≤ (1 + (2 : ℝ)⁻¹ ^ F.prec) ^ (D + 5) * Spec.dist (reals e'.1) (reals q) ^ 2 := by
  obtain ⟨hi, hp, _⟩ := KdTree.build_refines (w := w) (e₀ :: h)
  have hq' : ∀ i, Reg k (q i) := hq
  have hent : ∀ e ∈ entries (KdTree.build w (e₀ :: h)).root, ∀ i, Wild (e.1 i) ∨ Reg k (e.1 i) :=
    fun e he => hh e (mem_of_firstEntries (hp.mem_iff.1 he))
  have reg_of : ∀ e ∈ e₀ :: h, (∀ i, ∃ r, (e.1 i).val? = some r) → ∀ i, Reg k (e.1 i) := by
    intro e he hf i
    rcases hh e he i with hw | hr
    · obtain ⟨r, hr⟩ := hf i
      rcases hw with hw | ⟨s, hw⟩ <;> rw [hw] at hr <;> simp [val?] at hr
    · exact hr
  have hself : ∀ v : Vec (Ieee F) D, (∀ i, Reg k (v i)) → (v == v) = true := by
    intro v hv
    rw [vec_beq_iff]
    intro i
    have := (hv i).near.1
    exact (this.beq_iff this).2 rfl
  -- the distance of the first point is not NaN
  have h0 : kdDistance q e₀.1 ≠ nan := by
    rcases reg_or_big (fun i => hh e₀ (by simp) i) q with hr | _
    · intro hc
      have := (reg_kdDistance hq' hr hk).val
      rw [hc] at this
      simp [val?] at this
    · have key : ∀ n (f : Fin n → Ieee F), (∀ i, f i = inf false ∨ ∃ x, Near (2 * (k + 1)) (f i) x ∧ 0 ≤ x.1) → 2 * (k + 1) + n < F.emax →
          Fin.foldl n (fun s i => s + f i) 0 = inf false ∨ ∃ x, Near (2 * (k + 1) + n) (Fin.foldl n (fun s i => s + f i) 0) x ∧ 0 ≤ x.1 := by
        intro n f hf hn
        induction n with
        | zero => exact .inr ⟨0, by simpa using near_zero.mono (Nat.zero_le _), le_rfl⟩
        | succ n ih =>
          rw [Fin.foldl_succ_last]
          rcases ih (fun i => f i.castSucc) (fun i => hf _) (by omega) with h1 | ⟨x, hx, hx0⟩
          · rw [h1]
            rcases hf (Fin.last n) with h2 | ⟨y, hy, _⟩
            · rw [h2]; exact .inl rfl
            · rcases hy.cases with ⟨h3, _⟩ | ⟨h4, h3⟩ <;> rw [h3] <;> exact .inl rfl
          · rcases hf (Fin.last n) with h2 | ⟨y, hy, hy0⟩
            · rw [h2]
              rcases hx.cases with ⟨h3, _⟩ | ⟨h4, h3⟩ <;> rw [h3] <;> exact .inl rfl
            · exact .inr ⟨_, hx.add (hy.mono (by omega)) (by omega), F.rounds.nonneg (add_nonneg hx0 hy0)⟩
      have hterm : ∀ i, (q i - e₀.1 i) * (q i - e₀.1 i) = inf false ∨
          ∃ x, Near (2 * (k + 1)) ((q i - e₀.1 i) * (q i - e₀.1 i)) x ∧ 0 ≤ x.1 := by
        intro i
        have nq := (hq' i).near.1
        rcases hh e₀ (by simp) i with (hw | ⟨s, hw⟩) | hr
        · exact absurd hw (h₀ i)
        · left
          have : ∃ t, q i - e₀.1 i = inf t := by
            rw [hw]
            rcases nq.cases with ⟨h3, _⟩ | ⟨h4, h3⟩ <;> rw [h3] <;> exact ⟨!s, rfl⟩
          obtain ⟨t, ht⟩ := this
          rw [ht]
          show (@ite (Ieee F) _ (Classical.propDecidable _) _ _) = _
          rw [if_neg (by simp [val?])]
          cases t <;> rfl
        · right
          have nd := nq.sub (Reg.near hr).1 (by omega)
          rw [two_mul]
          exact ⟨_, nd.mul nd (by omega), F.rounds.nonneg (mul_self_nonneg _)⟩
      unfold kdDistance
      rcases key D _ hterm hk with h1 | ⟨x, hx, hx0⟩
      · rw [h1]; show (inf false : Ieee F) ≠ nan; simp
      · intro hc
        have := (hx.sqrt hx0 (m := k + 1 + D) (by omega) (by omega)).val
        rw [hc] at this
        simp [val?] at this
  obtain ⟨l, r, hroot⟩ := build_root (w := w) e₀ h
  have hpost := nearest_post_ieee hk q hq' (KdTree.build w (e₀ :: h)).root [] (0 : BitVec w) ([], kdDistance q e₀.1) h0 hi hent
  set t := (KdTree.build w (e₀ :: h)).root with ht
  set best := nearestHelper q t [] (0 : BitVec w) ([], kdDistance q e₀.1) with hbest
  have hnp : (KdTree.build w (e₀ :: h)).nearestPath q = .ok best.1 := by
    unfold KdTree.nearestPath
    rw [← ht, hroot]
    simp only [hbest, hroot]
  -- some finite distance is an upper bound
  obtain ⟨e₁, he₁, hf₁⟩ := hfin
  have hr₁ := reg_of e₁ he₁ hf₁
  obtain ⟨e₂, he₂, heq₂⟩ := (Spec.mem_firstEntries_key (e₀ :: h) e₁.1).2 ⟨e₁, he₁, hself _ hr₁⟩
  have htop : ∀ e ∈ entries t, (∀ i, Reg k (e.1 i)) → ord best.2 < ⊤ := by
    intro e he hr
    have := hpost.le_all e he
    rw [ord_of_val (reg_kdDistance hr hq' hk).val] at this
    exact lt_of_le_of_lt this (EReal.coe_lt_top _)
  have reg_of_beq : ∀ e ∈ e₀ :: h, ∀ v : Vec (Ieee F) D, (∀ i, Reg k (v i)) → (e.1 == v) = true → ∀ i, Reg k (e.1 i) := by
    intro e he v hv hb i
    refine (hh e he i).resolve_left fun hw => ?_
    have hbi := beq_iff.1 (vec_beq_iff.1 hb i)
    obtain ⟨x, hx, _⟩ := hv i
    rw [ord_of_val hx] at hbi
    rcases hw with hw | ⟨s, hw⟩
    · exact hbi.1 hw
    · rw [hw] at hbi; cases s <;> simp [ord] at hbi
  have hr₂ := reg_of_beq e₂ (mem_of_firstEntries he₂) _ hr₁ heq₂
  have hlt := htop e₂ (hp.mem_iff.2 he₂) hr₂
  -- the entry found
  obtain ⟨e, hge, hde⟩ : ∃ e, t.get? best.1 = some e ∧ ord best.2 = ord (kdDistance e.1 q) := by
    rcases hpost.src with hs | ⟨rest, e, h1, h2, h3⟩
    · refine ⟨e₀, by rw [hs, hroot]; rfl, ?_⟩
      rw [hs] at hlt ⊢
      rcases reg_or_big (fun i => hh e₀ (by simp) i) q with hr | ⟨_, hb⟩
      · exact reg_kdDistance_comm hq' hr hk
      · rw [hb.ord_eq] at hlt; exact absurd hlt (lt_irrefl _)
    · exact ⟨e, by rw [h1]; exact h2, by rw [h3]⟩
  have hmem := get?_mem _ _ _ hge
  have hreg : ∀ i, Reg k (e.1 i) := by
    rcases reg_or_big (hent e hmem) q with hr | ⟨hb, _⟩
    · exact hr
    · rw [hde, hb.ord_eq] at hlt; exact absurd hlt (lt_irrefl _)
  refine ⟨e, hp.mem_iff.1 hmem, fun i => ⟨_, (hreg i).near.1.val⟩, ?_, ?_⟩
  · unfold KdTree.nearest
    rw [hnp]
    simp only [← ht, hge]
  · intro e' he' hf'
    have hr' := reg_of e' he' hf'
    obtain ⟨e'', he'', heq⟩ := (Spec.mem_firstEntries_key (e₀ :: h) e'.1).2 ⟨e', he', hself _ hr'⟩
    have hr'' := reg_of_beq e'' (mem_of_firstEntries he'') _ hr' heq
    have hsame : reals e''.1 = reals e'.1 := by
      funext i
      have hb := beq_iff.1 (vec_beq_iff.1 heq i)
      obtain ⟨x, hx, _⟩ := hr'' i
      obtain ⟨y, hy, _⟩ := hr' i
      rw [ord_of_val hx, ord_of_val hy, EReal.coe_eq_coe_iff] at hb
      show (e''.1 i).val?.getD 0 = (e'.1 i).val?.getD 0
      rw [hx, hy, hb.2.2]
    rw [← hsame, reals_eq hreg, reals_eq hr'', reals_eq hq']
    have hle := hpost.le_all e'' (hp.mem_iff.2 he'')
    rw [hde, ord_of_val (reg_kdDistance hreg hq' hk).val, ord_of_val (reg_kdDistance hr'' hq' hk).val, EReal.coe_le_coe_iff] at hle
    have g1 : GridPoint (flOf e.1) := fun i => (hreg i).near.2
    have g2 : GridPoint (flOf e''.1) := fun i => (hr'' i).near.2
    have gq : GridPoint (flOf q) := fun i => (hq' i).near.2
    have n1 : 0 ≤ (kdDistance (flOf e.1) (flOf q)).1 := F.rounds.nonneg (Real.sqrt_nonneg _)
    exact (kdDistance_bounds g1 gq).1.trans ((pow_le_pow_left₀ n1 hle 2).trans (kdDistance_bounds g2 gq).2)

/-- **C116** (why the first point must not have a NaN coordinate) If it has, every query is answered with it: no comparison with a NaN distance succeeds.
The same happens to every query with a coordinate that is NaN or infinite. -/
theorem C116_counterexample (e₀ : Vec (Ieee F) D × P) (h : List (Vec (Ieee F) D × P)) (q : Vec (Ieee F) D)
    (hn : (∃ i, e₀.1 i = nan) ∨ ∃ i, q i = nan ∨ ∃ s, q i = inf s) :
    (KdTree.build w (e₀ :: h)).nearest q = .ok e₀ := by
  obtain ⟨l, r, hroot⟩ := build_root (w := w) e₀ h
  have hs : nearestHelper q (KdTree.build w (e₀ :: h)).root [] (0 : BitVec w) ([], kdDistance q e₀.1) = ([], kdDistance q e₀.1) := by
    apply nearest_stays
    intro e _
    rcases hn with ⟨i, hi⟩ | ⟨i, hi⟩
    · rw [kdDistance_nan i (.inr hi)]; exact not_lt_nan _
    · exact (kdDistance_big i (.inr hi)).not_lt _
  rw [hroot] at hs
  unfold KdTree.nearest KdTree.nearestPath
  simp only [hroot, hs]
  rfl

/-- **C117** In IEEE arithmetic with its largest exponent, `nearest` is right up to rounding, as in C90, if all coordinates are at most `2 ^ k`
with `2 (k + 1) + D < emax`: for `double` and three dimensions `k = 509`, for `float` `k = 61`.
Missing: larger coordinates, see `C117_counterexample`. -/
theorem C117_nearest_partial (k : ℕ) (hk : 2 * (k + 1) + D < F.emax) (h : List (Vec (Ieee F) D × P)) (q : Vec (Ieee F) D) (hne : h ≠ [])
    (hh : ∀ e ∈ h, ∀ i, ∃ r, (e.1 i).val? = some r ∧ |r| ≤ 2 ^ k ∧ OnGrid F.prec F.emin r)
    (hq : ∀ i, ∃ r, (q i).val? = some r ∧ |r| ≤ 2 ^ k ∧ OnGrid F.prec F.emin r) :
    ∃ e ∈ Spec.firstEntries h, (KdTree.build w h).nearest q = .ok e ∧
      ∀ e' ∈ h, (1 - (2 : ℝ)⁻¹ ^ F.prec) ^ (D + 5) * Spec.dist (reals e.1) (reals q) ^ 2
        ≤ (1 + (2 : ℝ)⁻¹ ^ F.prec) ^ (D + 5) * Spec.dist (reals e'.1) (reals q) ^ 2 := by
  cases h with
  | nil => exact absurd rfl hne
  | cons e₀ h =>
    have hf : ∀ e ∈ e₀ :: h, ∀ i, ∃ r, (e.1 i).val? = some r := fun e he i => by obtain ⟨r, hr, _⟩ := hh e he i; exact ⟨r, hr⟩
    obtain ⟨e, h1, _, h3, h4⟩ := C116_nearest_partial (w := w) k hk e₀ h q (fun e he i => .inr (hh e he i)) hq
      (fun i hc => by obtain ⟨r, hr⟩ := hf e₀ (by simp) i; rw [hc] at hr; simp [val?] at hr) ⟨e₀, by simp, hf e₀ (by simp)⟩
    exact ⟨e, h1, h3, fun e' he' => h4 e' he' (hf e' he')⟩

theorem ofReal_inf {s : Bool} {r : ℝ} (hm : Representable F.prec F.emin r) (h : (2 : ℝ) ^ F.emax ≤ r) : ofReal (F := F) s r = inf false := by
  have hr : (Fl.round r : Fl F.toFloatFormat).1 = r := F.rounds.exact hm
  have h2 : (0 : ℝ) < 2 ^ F.emax := by positivity
  unfold ofReal
  simp only [hr]
  rw [if_neg (by linarith), dif_neg (by rw [abs_of_pos (by linarith)]; exact not_lt.2 h)]
  congr 1
  exact @decide_eq_false _ (Classical.propDecidable _) (by linarith)

/-- Squares of numbers from `2 ^ ⌈emax / 2⌉` on overflow. -/
theorem sq_overflow {n : ℕ} {a : Ieee F} (ha : a.val? = some ((2 : ℝ) ^ n) ∨ a.val? = some (-(2 : ℝ) ^ n)) (h : F.emax ≤ 2 * n) : a * a = inf false := by
  have : ∃ s, a * a = ofReal s ((2 : ℝ) ^ (2 * n)) := by
    rcases ha with ha | ha
    · obtain ⟨s, hs⟩ := mul_def ha ha
      exact ⟨s, by rw [hs]; congr 1; rw [two_mul, pow_add]⟩
    · obtain ⟨s, hs⟩ := mul_def ha ha
      exact ⟨s, by rw [hs]; congr 1; rw [two_mul, pow_add]; ring⟩
  obtain ⟨s, hs⟩ := this
  rw [hs]
  exact ofReal_inf (pow_mem _ _) (pow_le_pow_right₀ (by norm_num) h)

/-- **C117** (the restriction is needed) In every format (`float` and `double` included) and every dimension there are two stored points and a query, all with finite
coordinates, such that `nearest` returns the point at twice the distance: both squared distances overflow to the same infinity. -/
theorem C117_counterexample (F : IeeeFormat) (hF : 4 ≤ F.emax) (D : Nat) [NeZero D] (w : Nat) :
    ∃ a b q : Vec (Ieee F) D, (∀ i, (∃ x, (a i).val? = some x) ∧ (∃ x, (b i).val? = some x) ∧ ∃ x, (q i).val? = some x) ∧
      Spec.dist (reals a) (reals q) = 2 * Spec.dist (reals b) (reals q) ∧ 0 < Spec.dist (reals b) (reals q) ∧
      (KdTree.build w [(a, "a"), (b, "b")] : KdTree (Ieee F) D String w).nearest q = .ok (a, "a") := by
  have val : ∀ n, n < F.emax → ∃ c : Ieee F, c.val? = some ((2 : ℝ) ^ n) := by
    intro n hn
    exact ⟨fin ⟨(2 : ℝ) ^ n, pow_mem _ _⟩ (by rw [abs_of_pos (by positivity)]; exact pow_lt_pow' hn), rfl⟩
  obtain ⟨c, hc⟩ := val (F.emax - 1) (by omega)
  obtain ⟨d, hd⟩ := val (F.emax - 2) (by omega)
  have near' : ∀ (n : ℕ) (c : Ieee F), n < F.emax → c.val? = some ((2 : ℝ) ^ n) →
      (c - (0 : Ieee F)).val? = some ((2 : ℝ) ^ n) := by
    intro n c hn hc
    · obtain ⟨s, hs⟩ := add_def (F := F) hc (near_zero (F := F)).neg.val
      rw [show c - (0 : Ieee F) = c + -0 from rfl, hs]
      have := (ofReal_near (F := F) (s := s) (r := (2 : ℝ) ^ n + (-(0 : Fl F.toFloatFormat)).1) (k := n) (by
        show |(2 : ℝ) ^ n + -(0 : ℝ)| ≤ _; rw [neg_zero, add_zero, abs_of_pos (by positivity)]) hn).val
      rw [this]
      show some (F.rnd ((2 : ℝ) ^ n + -(0 : ℝ))) = _
      rw [neg_zero, add_zero, F.rounds.exact (pow_mem _ _)]
  have big : ∀ (n : ℕ) (c : Ieee F), n < F.emax → F.emax ≤ 2 * n → c.val? = some ((2 : ℝ) ^ n) →
      Big (kdDistance (fun _ : Fin D => c) (fun _ => (0 : Ieee F))) := by
    intro n c hn h2 hc
    refine Big.sqrt (foldl_big (fun _ => (c - 0) * (c - 0)) (fun _ => mul_self_nonneg' _) 0 (.inr ?_))
    exact sq_overflow (.inl (near' n c hn hc)) h2
  refine ⟨fun _ => c, fun _ => d, fun _ => 0, fun i => ⟨⟨_, hc⟩, ⟨_, hd⟩, ⟨_, near_zero.val⟩⟩, ?_, ?_, ?_⟩
  · have e1 : ∀ (n : ℕ) (c : Ieee F), c.val? = some ((2 : ℝ) ^ n) →
        Spec.dist (reals (fun _ : Fin D => c)) (reals fun _ => (0 : Ieee F)) = Real.sqrt D * 2 ^ n := by
      intro n c hc
      have h1 : reals (fun _ : Fin D => c) = fun _ => (2 : ℝ) ^ n := by funext i; simp [reals, hc]
      have h2 : reals (fun _ : Fin D => (0 : Ieee F)) = fun _ => (0 : ℝ) := by funext i; rfl
      rw [h1, h2]
      simp only [Spec.dist, sub_zero, Finset.sum_const, Finset.card_univ, Fintype.card_fin, nsmul_eq_mul]
      rw [Real.sqrt_mul (by positivity), Real.sqrt_sq (by positivity)]
    rw [e1 _ c hc, e1 _ d hd, show F.emax - 1 = (F.emax - 2) + 1 by omega, pow_succ]; ring
  · have h1 : reals (fun _ : Fin D => d) = fun _ => (2 : ℝ) ^ (F.emax - 2) := by funext i; simp [reals, hd]
    have h2 : reals (fun _ : Fin D => (0 : Ieee F)) = fun _ => (0 : ℝ) := by funext i; rfl
    rw [h1, h2]
    simp only [Spec.dist, sub_zero, Finset.sum_const, Finset.card_univ, Fintype.card_fin, nsmul_eq_mul]
    have : 0 < D := Nat.pos_of_ne_zero (NeZero.ne D)
    positivity
  · obtain ⟨l, r, hroot⟩ := build_root (w := w) ((fun _ => c : Vec (Ieee F) D), "a") [((fun _ => d : Vec (Ieee F) D), "b")]
    have hs : nearestHelper (fun _ => 0) (KdTree.build w [((fun _ => c : Vec (Ieee F) D), "a"), ((fun _ => d : Vec (Ieee F) D), "b")]).root [] (0 : BitVec w)
        ([], kdDistance (fun _ => 0) (fun _ : Fin D => c)) = ([], kdDistance (fun _ => 0) (fun _ : Fin D => c)) := by
      apply nearest_stays
      intro e he
      have hp := (KdTree.build_refines (w := w) [((fun _ => c : Vec (Ieee F) D), "a"), ((fun _ => d : Vec (Ieee F) D), "b")]).2.1
      have := mem_of_firstEntries (hp.mem_iff.1 he)
      simp only [List.mem_cons, List.not_mem_nil, or_false] at this
      rcases this with rfl | rfl
      · exact (big _ c (by omega) (by omega) hc).not_lt _
      · exact (big _ d (by omega) (by omega) hd).not_lt _
    rw [hroot] at hs
    unfold KdTree.nearest KdTree.nearestPath
    simp only [hroot, hs]
    rfl
end

/-! ### Concrete cases -/
section Examples

/-- `double` with its largest exponent. -/
noncomputable def double64 : IeeeFormat where
  toFloatFormat := binary64
  emax := 1024
  one_lt_emax := by norm_num
  max_mem := ⟨2 ^ 53 - 1, 971, by show |(2 ^ 53 - 1 : ℤ)| < 2 ^ 53; norm_num, by intro k hk; cases hk; norm_num, by
    show ((2 : ℝ) ^ 53 - 1) * 2 ^ (((1024 : ℕ) : ℤ) - (53 : ℕ)) = _; norm_num⟩

/-- Integers as `double`s. -/
noncomputable def ie64 (n : ℤ) (h : |n| < 2 ^ 53 := by norm_num) : Ieee double64 := fin (fl64 n h) (by
  show |(n : ℝ)| < 2 ^ 1024
  have h1 : |(n : ℝ)| < 2 ^ 53 := by exact_mod_cast h
  exact h1.trans (pow_lt_pow' (by norm_num)))

theorem ie64_reg (n : ℤ) (h : |n| < 2 ^ 53) : ∃ r, (ie64 n h).val? = some r ∧ |r| ≤ 2 ^ 509 ∧ OnGrid double64.prec double64.emin r := by
  refine ⟨n, rfl, ?_, fl64_onGrid n h⟩
  have h1 : |(n : ℝ)| < 2 ^ 53 := by exact_mod_cast h
  exact h1.le.trans (pow_le_pow_right₀ (by norm_num) (by norm_num))

/-- C116: a tree with a NaN point and an infinite point among others. -/
example (w : Nat) (p : Vec (Ieee double64) 2) (hp : p = ![nan, ie64 1]) :
    (KdTree.build w [(![ie64 3, ie64 7], "a"), (p, "b"), (![inf true, ie64 0], "c")]).search p = false :=
  ((C116_search (w := w) [((![ie64 3, ie64 7] : Vec (Ieee double64) 2), "a"), (p, "b"), (![inf true, ie64 0], "c")] p "d").2.2 ⟨0, by rw [hp]; rfl⟩).1

example : ∃ e : Vec (Ieee double64) 2 × String,
    (KdTree.build 64 [(![ie64 3, ie64 7], "a"), (![nan, ie64 1], "b"), (![inf true, ie64 0], "c"), (![ie64 1, ie64 2], "d")]).nearest ![ie64 1, ie64 1] = .ok e ∧
    (1 - (2 : ℝ)⁻¹ ^ 53) ^ 7 * Spec.dist (reals e.1) (reals ![ie64 1, ie64 1]) ^ 2
      ≤ (1 + (2 : ℝ)⁻¹ ^ 53) ^ 7 * Spec.dist (reals (![ie64 1, ie64 2] : Vec (Ieee double64) 2)) (reals ![ie64 1, ie64 1]) ^ 2 := by
  have fin2 : ∀ (m n : ℤ) (hm : |m| < 2 ^ 53) (hn : |n| < 2 ^ 53) (i : Fin 2),
      ∃ r, ((![ie64 m hm, ie64 n hn] : Vec (Ieee double64) 2) i).val? = some r ∧ |r| ≤ 2 ^ 509 ∧ OnGrid double64.prec double64.emin r := by
    intro m n hm hn i
    fin_cases i
    · exact ie64_reg m hm
    · exact ie64_reg n hn
  obtain ⟨e, _, _, h2, h3⟩ := C116_nearest_partial (F := double64) (D := 2) (w := 64) 509 (by show 2 * (509 + 1) + 2 < 1024; norm_num) (![ie64 3, ie64 7], "a")
    [(![nan, ie64 1], "b"), (![inf true, ie64 0], "c"), (![ie64 1, ie64 2], "d")] ![ie64 1, ie64 1] (by
      intro e he i
      simp only [List.mem_cons, List.not_mem_nil, or_false] at he
      rcases he with rfl | rfl | rfl | rfl
      · exact .inr (fin2 _ _ _ _ i)
      · fin_cases i
        · exact .inl (.inl rfl)
        · exact .inr (ie64_reg 1 (by norm_num))
      · fin_cases i
        · exact .inl (.inr ⟨true, rfl⟩)
        · exact .inr (ie64_reg 0 (by norm_num))
      · exact .inr (fin2 _ _ _ _ i)) (fin2 _ _ _ _)
    (by intro i; fin_cases i <;> simp [ie64])
    ⟨(![ie64 3, ie64 7], "a"), by simp, fun i => by obtain ⟨r, hr, _⟩ := fin2 3 7 (by norm_num) (by norm_num) i; exact ⟨r, hr⟩⟩
  refine ⟨e, h2, h3 (![ie64 1, ie64 2], "d") (by simp) fun i => ?_⟩
  obtain ⟨r, hr, _⟩ := fin2 1 2 (by norm_num) (by norm_num) i
  exact ⟨r, hr⟩

/-- C116: the NaN point came first. -/
example : (KdTree.build 64 [(![ie64 3, nan], "a"), (![ie64 1, ie64 1], "b")]).nearest ![ie64 1, ie64 1] =
    .ok ((![ie64 3, nan] : Vec (Ieee double64) 2), "a") :=
  C116_counterexample _ _ _ (.inl ⟨1, rfl⟩)

/-- C117 on two points. -/
example : ∃ e : Vec (Ieee double64) 2 × String, (KdTree.build 64 [(![ie64 3, ie64 7], "a"), (![ie64 1, ie64 2], "b")]).nearest ![ie64 1, ie64 1] = .ok e := by
  have fin2 : ∀ (m n : ℤ) (hm : |m| < 2 ^ 53) (hn : |n| < 2 ^ 53) (i : Fin 2),
      ∃ r, ((![ie64 m hm, ie64 n hn] : Vec (Ieee double64) 2) i).val? = some r ∧ |r| ≤ 2 ^ 509 ∧ OnGrid double64.prec double64.emin r := by
    intro m n hm hn i
    fin_cases i
    · exact ie64_reg m hm
    · exact ie64_reg n hn
  obtain ⟨e, _, h, _⟩ := C117_nearest_partial (F := double64) (D := 2) (w := 64) 509 (by show 2 * (509 + 1) + 2 < 1024; norm_num)
    [(![ie64 3, ie64 7], "a"), (![ie64 1, ie64 2], "b")] ![ie64 1, ie64 1] (by simp) (by
      intro e he i
      simp only [List.mem_cons, List.not_mem_nil, or_false] at he
      rcases he with rfl | rfl <;> exact fin2 _ _ _ _ i) (fin2 _ _ _ _)
  exact ⟨e, h⟩

/-- C117 for `double`. -/
example : ∃ a b q : Vec (Ieee double64) 3, Spec.dist (reals a) (reals q) = 2 * Spec.dist (reals b) (reals q) ∧
    (KdTree.build 64 [(a, "a"), (b, "b")] : KdTree (Ieee double64) 3 String 64).nearest q = .ok (a, "a") := by
  obtain ⟨a, b, q, _, h2, _, h4⟩ := C117_counterexample double64 (by show 4 ≤ 1024; norm_num) 3 64
  exact ⟨a, b, q, h2, h4⟩
end Examples
end Verif
