import Verif.Model.MeshNormals
import Verif.Spec.Normal
import Verif.Props.MeshOpposite
import Verif.Proofs.Vec
import Mathlib.LinearAlgebra.CrossProduct
import Mathlib.Data.Prod.Lex
import Mathlib.Data.Real.Basic

set_option linter.unusedSectionVars false

/-
Lemmas for the facet and vertex normals.
-/
namespace Verif
open Spec Matrix

/-! ### Cross product -/

theorem cross_eq (u v : Vec ℝ 3) : cross u v = u ⨯₃ v := by
  funext i
  rw [cross_apply]
  fin_cases i <;> simp [cross]

theorem cross_sub_right (a b c : Vec ℝ 3) :
    cross (vsub b a) (vsub c b) = cross (vsub b a) (vsub c a) := by
  funext i
  fin_cases i <;> simp [cross, vsub] <;> ring

/-- The normal as computed, on the spec side. -/
def normalOf {T : Type} [Zero T] [Add T] [Sub T] [Mul T] [Div T] [HasSqrt T] (t : Vec T 3 × Vec T 3 × Vec T 3) : Vec T 3 :=
  normalize (cross (vsub t.2.1 t.1) (vsub t.2.2 t.2.1))

theorem nonDegenerate_iff (t : Vec ℝ 3 × Vec ℝ 3 × Vec ℝ 3) :
    NonDegenerate t ↔ cross (vsub t.2.1 t.1) (vsub t.2.2 t.2.1) ≠ 0 := by
  rw [cross_sub_right, cross_eq, NonDegenerate, crossProduct_ne_zero_iff_linearIndependent]
  rfl

theorem isNormal_iff {t : Vec ℝ 3 × Vec ℝ 3 × Vec ℝ 3} (ht : NonDegenerate t) (n : Vec ℝ 3) :
    IsNormal t n ↔ n = normalOf t := by
  rw [nonDegenerate_iff] at ht
  unfold normalOf IsNormal
  obtain ⟨a, b, c⟩ := t
  dsimp only at ht ⊢
  set w := cross (vsub b a) (vsub c b) with hw
  have hw0 : w 0 = (b 1 - a 1) * (c 2 - b 2) - (b 2 - a 2) * (c 1 - b 1) := by simp [hw, cross, vsub]
  have hw1 : w 1 = (b 2 - a 2) * (c 0 - b 0) - (b 0 - a 0) * (c 2 - b 2) := by simp [hw, cross, vsub]
  have hw2 : w 2 = (b 0 - a 0) * (c 1 - b 1) - (b 1 - a 1) * (c 0 - b 0) := by simp [hw, cross, vsub]
  have hlen : length w ^ 2 = w 0 * w 0 + w 1 * w 1 + w 2 * w 2 := by
    rw [length_sq]; simp [dotProduct, Fin.sum_univ_three]
  have hpos : 0 < length w := length_pos ht
  clear_value w
  have hdet : ∀ n : Vec ℝ 3, det !![(b - a) 0, (b - a) 1, (b - a) 2; (c - a) 0, (c - a) 1, (c - a) 2; n 0, n 1, n 2]
      = w 0 * n 0 + w 1 * n 1 + w 2 * n 2 := by
    intro n
    rw [det_fin_three, hw0, hw1, hw2]
    simp
    ring
  rw [hdet]
  constructor
  · rintro ⟨h1, h2, h3, h4, h5⟩
    rw [spec_norm_eq] at h1
    have h1' : n 0 * n 0 + n 1 * n 1 + n 2 * n 2 = 1 := by
      have := length_sq n
      rw [h1] at this
      simp [dotProduct, Fin.sum_univ_three] at this
      linarith
    simp only [dotProduct, Fin.sum_univ_three, Pi.sub_apply] at h2 h3
    have key : ∀ i, n i * (length w ^ 2) = w i * (w 0 * n 0 + w 1 * n 1 + w 2 * n 2) := by
      intro i
      rw [hlen, hw0, hw1, hw2]
      fin_cases i
      · simp only [Fin.zero_eta, Fin.isValue]
        rw [hw0]
        linear_combination
          (-(w 1 * (c 2 - b 2) - w 2 * (c 1 - b 1))) * h2 + (w 1 * (b 2 - a 2) - w 2 * (b 1 - a 1)) * h3
          + (0 : ℝ) * hw0 + (-(-(c 2 - b 2) * (n 0 * (b 0 - a 0) + n 1 * (b 1 - a 1) + n 2 * (b 2 - a 2))
             + (b 2 - a 2) * (n 0 * (c 0 - b 0) + n 1 * (c 1 - b 1) + n 2 * (c 2 - b 2)))) * hw1
          + (-((c 1 - b 1) * (n 0 * (b 0 - a 0) + n 1 * (b 1 - a 1) + n 2 * (b 2 - a 2))
             - (b 1 - a 1) * (n 0 * (c 0 - b 0) + n 1 * (c 1 - b 1) + n 2 * (c 2 - b 2)))) * hw2
      · simp only [Fin.mk_one, Fin.isValue]
        rw [hw1]
        linear_combination
          (-(w 2 * (c 0 - b 0) - w 0 * (c 2 - b 2))) * h2 + (w 2 * (b 0 - a 0) - w 0 * (b 2 - a 2)) * h3
          + (-(-(c 0 - b 0) * (n 0 * (b 0 - a 0) + n 1 * (b 1 - a 1) + n 2 * (b 2 - a 2))
             + (b 0 - a 0) * (n 0 * (c 0 - b 0) + n 1 * (c 1 - b 1) + n 2 * (c 2 - b 2)))) * hw2
          + (-((c 2 - b 2) * (n 0 * (b 0 - a 0) + n 1 * (b 1 - a 1) + n 2 * (b 2 - a 2))
             - (b 2 - a 2) * (n 0 * (c 0 - b 0) + n 1 * (c 1 - b 1) + n 2 * (c 2 - b 2)))) * hw0
      · simp only [Fin.reduceFinMk, Fin.isValue]
        rw [hw2]
        linear_combination
          (-(w 0 * (c 1 - b 1) - w 1 * (c 0 - b 0))) * h2 + (w 0 * (b 1 - a 1) - w 1 * (b 0 - a 0)) * h3
          + (-(-(c 1 - b 1) * (n 0 * (b 0 - a 0) + n 1 * (b 1 - a 1) + n 2 * (b 2 - a 2))
             + (b 1 - a 1) * (n 0 * (c 0 - b 0) + n 1 * (c 1 - b 1) + n 2 * (c 2 - b 2)))) * hw0
          + (-((c 0 - b 0) * (n 0 * (b 0 - a 0) + n 1 * (b 1 - a 1) + n 2 * (b 2 - a 2))
             - (b 0 - a 0) * (n 0 * (c 0 - b 0) + n 1 * (c 1 - b 1) + n 2 * (c 2 - b 2)))) * hw1
    have hd : w 0 * n 0 + w 1 * n 1 + w 2 * n 2 = length w := by
      have hsq : (w 0 * n 0 + w 1 * n 1 + w 2 * n 2) ^ 2 = length w ^ 2 := by
        have k0 := key 0; have k1 := key 1; have k2 := key 2
        linear_combination (-n 0) * k0 + (-n 1) * k1 + (-n 2) * k2 + (length w ^ 2) * h1'
      exact (pow_left_inj₀ h5.le hpos.le two_ne_zero).1 hsq
    funext i
    rw [normalize_eq, Pi.smul_apply, smul_eq_mul, inv_mul_eq_div, eq_div_iff hpos.ne']
    have := key i
    rw [hd] at this
    have h : length w * (n i * length w - w i) = 0 := by linear_combination this
    rcases mul_eq_zero.1 h with h | h
    · exact absurd h hpos.ne'
    · linarith
  · rintro rfl
    have hn : ∀ i, normalize w i = (length w)⁻¹ * w i := fun i => by rw [normalize_eq]; rfl
    refine ⟨by rw [spec_norm_eq, length_normalize ht], ?_, ?_, ?_, ?_⟩
    · simp only [dotProduct, Fin.sum_univ_three, Pi.sub_apply, hn, hw0, hw1, hw2]; ring
    · simp only [dotProduct, Fin.sum_univ_three, Pi.sub_apply, hn, hw0, hw1, hw2]; ring
    · simp only [dotProduct, Fin.sum_univ_three, Pi.sub_apply, hn, hw0, hw1, hw2]; ring
    · have : w 0 * normalize w 0 + w 1 * normalize w 1 + w 2 * normalize w 2 = (length w)⁻¹ * length w ^ 2 := by
        rw [hn, hn, hn, hlen]; ring
      rw [this]
      positivity

/-! ### Loops -/

theorem foldlM_push {α β : Type} (F : α → Res β) (g : α → β) (l : List α) (acc : List β)
    (h : ∀ x ∈ l, F x = .ok (g x)) :
    l.foldlM (fun r x => do let y ← F x; .ok (r ++ [y])) acc = (.ok (acc ++ l.map g) : Res (List β)) := by
  induction l generalizing acc with
  | nil => simp [pure_eq_ok]
  | cons x xs ih =>
    rw [List.foldlM_cons, h x (by simp), ok_bind, ok_bind, ih _ (fun y hy => h y (by simp [hy]))]
    simp

/-! ### Sorting and std::unique -/

theorem vecLexLt_iff {T : Type} [LinearOrder T] (a b : Vec T 3) :
    vecLexLt a b = true ↔ toLex (a 0, toLex (a 1, a 2)) < toLex (b 0, toLex (b 1, b 2)) := by
  simp only [vecLexLt, Bool.or_eq_true, Bool.and_eq_true, decide_eq_true_eq, beq_iff_eq, Prod.Lex.lt_iff, ofLex_toLex]
  tauto

theorem lexKey_injective {T : Type} : Function.Injective fun a : Vec T 3 => toLex (a 0, toLex (a 1, a 2)) := by
  intro a b h
  simp only [EmbeddingLike.apply_eq_iff_eq, Prod.mk.injEq] at h
  funext i
  fin_cases i
  · exact h.1
  · exact h.2.1
  · exact h.2.2

theorem vecLexLe_iff {T : Type} [LinearOrder T] (a b : Vec T 3) :
    (!vecLexLt b a) = true ↔ toLex (a 0, toLex (a 1, a 2)) ≤ toLex (b 0, toLex (b 1, b 2)) := by
  rw [Bool.not_eq_true', ← Bool.not_eq_true, vecLexLt_iff, not_lt]

theorem mem_stdUniqueFrom {α : Type*} [BEq α] [LawfulBEq α] (last : α) (l : List α) (y : α) :
    y ∈ stdUniqueFrom last l → y ∈ l := by
  induction l generalizing last with
  | nil => simp [stdUniqueFrom]
  | cons x xs ih =>
    unfold stdUniqueFrom
    split
    · intro h; exact List.mem_cons_of_mem _ (ih last h)
    · intro h
      rcases List.mem_cons.1 h with rfl | h
      · simp
      · exact List.mem_cons_of_mem _ (ih x h)

theorem mem_last_stdUniqueFrom {α : Type*} [BEq α] [LawfulBEq α] (last : α) (l : List α) (y : α) :
    y ∈ last :: stdUniqueFrom last l ↔ y ∈ last :: l := by
  induction l generalizing last with
  | nil => simp [stdUniqueFrom]
  | cons x xs ih =>
    unfold stdUniqueFrom
    split
    · rename_i h
      have := eq_of_beq h
      subst this
      rw [ih]; simp
    · rw [List.mem_cons, ih x, List.mem_cons (b := last)]

theorem mem_stdUnique {α : Type*} [BEq α] [LawfulBEq α] (l : List α) (y : α) : y ∈ stdUnique l ↔ y ∈ l := by
  cases l with
  | nil => rfl
  | cons x xs => exact mem_last_stdUniqueFrom x xs y

theorem nodup_stdUniqueFrom {α : Type*} [BEq α] [LawfulBEq α] (R : α → α → Prop) (hR : ∀ a b, R a b → R b a → a = b)
    (last : α) (l : List α) (h : (last :: l).Pairwise R) : (last :: stdUniqueFrom last l).Nodup := by
  induction l generalizing last with
  | nil => simp [stdUniqueFrom]
  | cons x xs ih =>
    unfold stdUniqueFrom
    split
    · apply ih
      exact h.sublist (by simp)
    · rename_i hx
      have hx : last ≠ x := by simpa using hx
      rw [List.nodup_cons]
      refine ⟨?_, ih x (List.pairwise_cons.1 h).2⟩
      intro hm
      rcases List.mem_cons.1 hm with e | hm
      · exact hx e
      · have hm := mem_stdUniqueFrom x xs _ hm
        have h1 := (List.pairwise_cons.1 h).1 x (by simp)
        have h2 := (List.pairwise_cons.1 (List.pairwise_cons.1 h).2).1 last hm
        exact hx (hR _ _ h1 h2)

theorem nodup_stdUnique {α : Type*} [BEq α] [LawfulBEq α] (R : α → α → Prop) (hR : ∀ a b, R a b → R b a → a = b)
    (l : List α) (h : l.Pairwise R) : (stdUnique l).Nodup := by
  cases l with
  | nil => exact List.nodup_nil
  | cons x xs => exact nodup_stdUniqueFrom R hR x xs h

/-- Sorting and `std::unique` leave each element exactly once. -/
theorem sorted_unique {T : Type} [LinearOrder T] [BEq (Vec T 3)] [LawfulBEq (Vec T 3)] (l : List (Vec T 3)) :
    (stdUnique (l.mergeSort fun a b => !vecLexLt b a)).Nodup ∧
    ∀ y, y ∈ stdUnique (l.mergeSort fun a b => !vecLexLt b a) ↔ y ∈ l := by
  constructor
  · refine nodup_stdUnique (fun a b => (!vecLexLt b a) = true) ?_ _ ?_
    · intro a b h1 h2
      rw [vecLexLe_iff] at h1 h2
      exact lexKey_injective (le_antisymm h1 h2)
    · refine List.pairwise_mergeSort ?_ ?_ l
      · intro a b c h1 h2
        rw [vecLexLe_iff] at *
        exact le_trans h1 h2
      · intro a b
        rw [Bool.or_eq_true, vecLexLe_iff, vecLexLe_iff]
        exact le_total _ _
  · intro y
    rw [mem_stdUnique, List.mem_mergeSort]

theorem foldl_vadd (l : List (Vec ℝ 3)) (a : Vec ℝ 3) : l.foldl vadd a = a + l.sum := by
  induction l generalizing a with
  | nil => simp
  | cons x xs ih => rw [List.foldl_cons, ih, vadd_eq, List.sum_cons, add_assoc]

/-! ### The normals of a built mesh -/
section
variable {T : Type} [Zero T] [Add T] [Sub T] [Mul T] [Div T] [HasSqrt T] [BEq (Vec T 3)] [LawfulBEq (Vec T 3)]

theorem corners_getElem? {V : Type} (ts : List (V × V × V)) (j d : Nat) (hj : j < ts.length) (hd : d < 3) :
    (corners ts)[3 * j + d]? = [ts[j].1, ts[j].2.1, ts[j].2.2][d]? := by
  have hsplit : ts = ts.take j ++ ts[j] :: ts.drop (j + 1) := by simp
  have : corners ts = corners (ts.take j) ++ ([ts[j].1, ts[j].2.1, ts[j].2.2] ++ corners (ts.drop (j + 1))) := by
    conv_lhs => rw [hsplit]
    rw [corners_append]; rfl
  have hcl : (corners (ts.take j)).length = 3 * j := by rw [corners_length]; simp; omega
  rw [this, List.getElem?_append_right (by omega), hcl, Nat.add_sub_cancel_left,
    List.getElem?_append_left (by simpa using hd)]

theorem built_heVector {V : Type} [BEq V] [LawfulBEq V] (o : Nat → Nat) (ts : List (V × V × V)) (j d : Nat)
    (hj : j < ts.length) (hd : d < 3) (p : V) (hp : [ts[j].1, ts[j].2.1, ts[j].2.2][d]? = some p) :
    (meshOfO o (weld (corners ts)).1 (weld (corners ts)).2).heVector (heOfO o (weld (corners ts)).2 (3 * j + d)) = .ok p := by
  have hk : 3 * j + d < (corners ts).length := by rw [corners_length]; omega
  rw [meshOfO_heVector _ _ _ (weld_welded _) (by rw [weld_length]; exact hk)]
  refine vecGet_of_getElem? ((weld_get _ _ hk).trans ?_)
  rw [← hp, ← corners_getElem? ts j d hj hd, List.getElem?_eq_getElem hk]

theorem calcFacetNormal_built (o : Nat → Nat) (ts : List (Vec T 3 × Vec T 3 × Vec T 3)) (j : Nat) (hj : j < ts.length) :
    calcFacetNormal (meshOfO o (weld (corners ts)).1 (weld (corners ts)).2) ⟨3 * j⟩ = .ok (normalOf ts[j]) := by
  have hl : (weld (corners ts)).2.length = 3 * ts.length := by rw [weld_length, corners_length]
  have n0 : nextCorner (3 * j) = 3 * j + 1 := by unfold nextCorner; omega
  have n1 : nextCorner (3 * j + 1) = 3 * j + 2 := by unfold nextCorner; omega
  have b0 := built_heVector o ts j 0 hj (by omega) _ rfl
  have b1 := built_heVector o ts j 1 hj (by omega) _ rfl
  have b2 := built_heVector o ts j 2 hj (by omega) _ rfl
  have e2 : (meshOfO o (weld (corners ts)).1 (weld (corners ts)).2).heNextVector
      (heOfO o (weld (corners ts)).2 (3 * j + 1)) = .ok ts[j].2.2 := by
    rw [meshOfO_heNextVector _ _ _ (weld_welded _) hl (by omega), n1, ← b2,
      meshOfO_heVector _ _ _ (weld_welded _) (by omega)]
  unfold calcFacetNormal
  rw [show (meshOfO o (weld (corners ts)).1 (weld (corners ts)).2).facetHalfedge ⟨3 * j⟩
    = .ok (heOfO o (weld (corners ts)).2 (3 * j)) from meshOfO_he _ _ _ (show 3 * j < _ by omega), ok_bind,
    meshOfO_heNext _ _ _ hl (by omega), ok_bind, n0]
  rw [Nat.add_zero] at b0
  rw [b0, ok_bind, b1, ok_bind, e2, ok_bind]
  rfl

theorem facetNormals_built (o : Nat → Nat) (ts : List (Vec T 3 × Vec T 3 × Vec T 3)) (js : List Nat)
    (hjs : ∀ j ∈ js, j < ts.length) :
    facetNormals (meshOfO o (weld (corners ts)).1 (weld (corners ts)).2) (js.map fun j => ⟨3 * j⟩)
      = .ok (js.map fun j => normalize ((ts[j]?.map normalOf).getD 0)) := by
  unfold facetNormals
  rw [List.foldlM_map]
  have := foldlM_push (fun j => do
    let n ← calcFacetNormal (meshOfO o (weld (corners ts)).1 (weld (corners ts)).2) ⟨3 * j⟩
    .ok (normalize n)) (fun j => normalize ((ts[j]?.map normalOf).getD 0)) js [] (by
      intro j hj
      rw [calcFacetNormal_built o ts j (hjs j hj), ok_bind, List.getElem?_eq_getElem (hjs j hj)]
      rfl)
  rw [List.nil_append] at this
  rw [← this]
  congr 1
  funext r j
  cases calcFacetNormal (meshOfO o (weld (corners ts)).1 (weld (corners ts)).2) ⟨3 * j⟩ <;> rfl

end

section
variable [BEq (Vec ℝ 3)] [LawfulBEq (Vec ℝ 3)]

theorem normalize_normalOf {t : Vec ℝ 3 × Vec ℝ 3 × Vec ℝ 3} (ht : NonDegenerate t) :
    normalize (normalOf t) = normalOf t := by
  have h := (nonDegenerate_iff t).1 ht
  rw [normalize_eq (normalOf t), normalOf, length_normalize h]
  simp

theorem calcVertexNormal_built (o : Nat → Nat) (ts : List (Vec ℝ 3 × Vec ℝ 3 × Vec ℝ 3))
    (hnd : ∀ t ∈ ts, NonDegenerate t) (i : Nat) (hi : i < (weld (corners ts)).1.length) :
    ∃ S : Finset (Vec ℝ 3), (∀ n, n ∈ S ↔ ∃ t ∈ ts, (weld (corners ts)).1[i] ∈ [t.1, t.2.1, t.2.2] ∧ IsNormal t n) ∧
      calcVertexNormal (meshOfO o (weld (corners ts)).1 (weld (corners ts)).2) ⟨i, hesOf (weld (corners ts)).2 i⟩
        = .ok (normalize (∑ n ∈ S, n)) := by
  classical
  have hl : (weld (corners ts)).2.length = 3 * ts.length := by rw [weld_length, corners_length]
  have hlt : ∀ k ∈ hesOf (weld (corners ts)).2 i, k < (weld (corners ts)).2.length := fun k hk =>
    (List.getElem?_eq_some_iff.1 ((mem_hesOf _ _ _).1 hk)).1
  set js := (hesOf (weld (corners ts)).2 i).map (· / 3) with hjs
  have hjlt : ∀ j ∈ js, j < ts.length := by
    intro j hj
    simp only [hjs, List.mem_map] at hj
    obtain ⟨k, hk, rfl⟩ := hj
    have := hlt k hk; omega
  set ns := js.map fun j => normalize ((ts[j]?.map normalOf).getD 0) with hns
  obtain ⟨hnod, hmem⟩ := sorted_unique ns
  refine ⟨(stdUnique (ns.mergeSort fun a b => !vecLexLt b a)).toFinset, ?_, ?_⟩
  · intro n
    rw [List.mem_toFinset, hmem, hns, List.mem_map]
    constructor
    · rintro ⟨j, hj, rfl⟩
      have hjl := hjlt j hj
      refine ⟨ts[j], List.getElem_mem hjl, ?_, ?_⟩
      · simp only [hjs, List.mem_map] at hj
        obtain ⟨k, hk, rfl⟩ := hj
        have := (weld_getElem?_iff (corners ts) i k hi).1 ((mem_hesOf _ _ _).1 hk)
        rw [List.getElem?_eq_getElem hi, show k = 3 * (k / 3) + k % 3 by omega,
          corners_getElem? ts (k / 3) (k % 3) hjl (by omega)] at this
        exact List.mem_of_getElem? this
      · rw [List.getElem?_eq_getElem hjl, Option.map_some, Option.getD_some,
          normalize_normalOf (hnd _ (List.getElem_mem hjl)), isNormal_iff (hnd _ (List.getElem_mem hjl))]
    · rintro ⟨t, ht, hc, hn⟩
      obtain ⟨j, hj, rfl⟩ := List.mem_iff_getElem.1 ht
      rw [isNormal_iff (hnd _ ht)] at hn
      refine ⟨j, ?_, ?_⟩
      · obtain ⟨d, hd, hdeq⟩ := List.mem_iff_getElem.1 hc
        have hd3 : d < 3 := by simpa using hd
        simp only [hjs, List.mem_map]
        refine ⟨3 * j + d, ?_, by omega⟩
        rw [mem_hesOf, weld_getElem?_iff (corners ts) i _ hi, corners_getElem? ts j d hj hd3,
          List.getElem?_eq_getElem hd, hdeq, List.getElem?_eq_getElem hi]
      · rw [List.getElem?_eq_getElem hj, Option.map_some, Option.getD_some, normalize_normalOf (hnd _ ht), hn]
  · unfold calcVertexNormal
    rw [calcVertexFacets_meshOfO _ _ _ _ hl i _ hlt, ok_bind]
    have := facetNormals_built o ts js hjlt
    rw [hjs, List.map_map] at this
    rw [show ((hesOf (weld (corners ts)).2 i).map fun k => (⟨3 * (k / 3)⟩ : Facet))
      = (hesOf (weld (corners ts)).2 i).map ((fun j => (⟨3 * j⟩ : Facet)) ∘ fun x => x / 3) from rfl, this, ok_bind]
    rw [← hjs, ← hns]
    dsimp only
    congr 2
    rw [foldl_vadd, List.sum_toFinset _ hnod]
    simp only [List.map_id']
    exact zero_add _
end
end Verif
