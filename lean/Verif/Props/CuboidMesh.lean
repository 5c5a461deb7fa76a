import Verif.Proofs.Surface
import Verif.Props.Solids

set_option linter.unusedSectionVars false

/-
C59.
-/
namespace Verif
open Spec

/-- The twelve triangles by corner choices (along x, y, z). -/
def cubeTris : List ((Fin 3 → Bool) × (Fin 3 → Bool) × (Fin 3 → Bool)) :=
  let O := ![false, false, false]
  let X := ![true, false, false]
  let Y := ![false, true, false]
  let Z := ![false, false, true]
  let XY := ![true, true, false]
  let XZ := ![true, false, true]
  let YZ := ![false, true, true]
  let XYZ := ![true, true, true]
  [(O, Z, YZ), (YZ, Y, O), (XYZ, XZ, X), (X, XY, XYZ),
   (O, X, XZ), (XZ, Z, O), (XYZ, XY, Y), (Y, YZ, XYZ),
   (O, Y, XY), (XY, X, O), (XYZ, YZ, Z), (Z, XZ, XYZ)]

theorem cubeTris_closed : ClosedOriented cubeTris := by
  unfold ClosedOriented
  have h : (directedEdges cubeTris).Nodup ∧ ∀ e ∈ directedEdges cubeTris, (e.2, e.1) ∈ directedEdges cubeTris := by
    decide +kernel
  exact ⟨h.1, fun a b hab => h.2 (a, b) hab⟩

theorem cubeTris_loops : ∀ a b, (a, b) ∈ directedEdges cubeTris → a ≠ b := by
  have h : ∀ e ∈ directedEdges cubeTris, e.1 ≠ e.2 := by decide +kernel
  exact fun a b hab => h (a, b) hab

theorem cubeTris_corners (a : Fin 3 → Bool) : a ∈ corners cubeTris := by
  revert a; decide +kernel

theorem cuboidTriangles_eq (c : Cuboid ℝ) : cuboidTriangles c = cubeTris.map (mapTriangle (corner c.origin c.sides)) := by
  have e : ∀ a, corner c.origin c.sides a = c.origin + ∑ i, (if a i then 1 else 0 : ℝ) • c.sides i := corner_eq _ _
  have hO : (vec3 0 0 0 : Vec ℝ 3) = 0 := by funext i; fin_cases i <;> rfl
  have k : ∀ a b d : Bool, corner c.origin c.sides ![a, b, d] = c.origin + ((if a then c.sides 0 else 0) +
      (if b then c.sides 1 else 0) + (if d then c.sides 2 else 0)) := by
    intro a b d
    rw [e, Fin.sum_univ_three]
    cases a <;> cases b <;> cases d <;> simp
  simp only [cuboidTriangles, cuboidFaceTriangles, cubeTris, List.map_cons, List.map_nil, mapTriangle, k, vadd_eq, hO]
  simp only [List.cons_append, List.nil_append, List.cons.injEq, Prod.mk.injEq, and_true, if_true, Bool.false_eq_true, if_false]
  refine ⟨?_, ?_, ?_, ?_, ?_, ?_, ?_, ?_, ?_, ?_, ?_, ?_⟩ <;> refine ⟨?_, ?_, ?_⟩ <;> abel

/-- The cuboid a builder builds. -/
def CuboidBuilder.theCuboid {T : Type} [Zero T] [One T] [Add T] [Mul T] [Div T] (b : CuboidBuilder T) : Cuboid T := b.cube.getD (Cuboid.ofDiagonal b.origin b.diagonal)

theorem cuboidTriangles_length {T : Type} [Zero T] [Add T] (c : Cuboid T) : (cuboidTriangles c).length = 12 := rfl

/-- What a cuboid builder returns: the mesh of the twelve triangles, unless a debug build refuses it. -/
theorem cuboid_build {T : Type} [LinearOrder T] [Zero T] [One T] [Add T] [Sub T] [Mul T] [Div T] [Neg T] [HasSqrt T]
    [StoredSound T 3] [BEq (Vec T 3)] [LawfulBEq (Vec T 3)] (dbg : Bool) (M w : Nat) (b : CuboidBuilder T) (hM : 36 < M)
    (hts : Apart (corners (cuboidTriangles b.theCuboid)) := by exact apart_real _) :
    ∃ m, buildMesh dbg M w (cuboidTriangles b.theCuboid) = .ok m ∧ BuiltFrom dbg M (cuboidTriangles b.theCuboid) m ∧
      m.halfedges.length = 36 ∧ m.facets.length = 12 ∧ m.vertices.length = m.points.length ∧
      b.build dbg M w = if dbg = true ∧ m.points.length ≠ 8 then .error .assertFailed
        else .ok (m, { b with cube := some b.theCuboid }) := by
  have hM' : 3 * (cuboidTriangles b.theCuboid).length < M := by rw [cuboidTriangles_length]; omega
  obtain ⟨m, hm, hb⟩ := C48_build_succeeds dbg M w _ hM' hts
  have hh : m.halfedges.length = 36 := by
    obtain ⟨o, rfl⟩ := hb.eq hM'
    simp [meshOfO, weld_length, corners_length, cuboidTriangles_length]
  have hf : m.facets.length = 12 := by
    obtain ⟨o, rfl⟩ := hb.eq hM'
    simp [meshOfO, facetsOf, weld_length, corners_length, cuboidTriangles_length]
  have hv : m.vertices.length = m.points.length := by
    have := congrArg List.length (C43_vertices dbg M _ hM' m hb).2.2.1
    simpa using this
  refine ⟨m, hm, hb, hh, hf, hv, ?_⟩
  unfold CuboidBuilder.build
  dsimp only
  change (buildMesh dbg M w (cuboidTriangles b.theCuboid) >>= _) = _
  rw [hm, ok_bind, hh, hv]
  cases dbg
  · rfl
  · by_cases h8 : m.points.length = 8
    · simp [h8, geoAssert]; rfl
    · simp [h8, geoAssert]; rfl

section
variable [BEq (Vec ℝ 3)] [LawfulBEq (Vec ℝ 3)]

theorem cuboid_points_mem (c : Cuboid ℝ) (v : Vec ℝ 3) : v ∈ c.vertices ↔ v ∈ corners (cuboidTriangles c) := by
  rw [(C68_corners c).mem_iff, cuboidTriangles_eq, corners_map, List.mem_map, List.mem_map]
  constructor
  · rintro ⟨a, _, rfl⟩; exact ⟨a, cubeTris_corners a, rfl⟩
  · rintro ⟨a, _, rfl⟩; exact ⟨a, C68_all_choices a, rfl⟩

/-- **C59** For a cuboid with linearly independent sides the builder succeeds, in debug builds too, and its mesh is closed
and consistently oriented; its vertices are the eight corners of the parallelepiped, and it has 18 edges (two line
indices each) and 12 triangles. -/
theorem C59_cuboid (dbg : Bool) (M w : Nat) (b : CuboidBuilder ℝ) (hM : 36 < M)
    (hi : LinearIndependent ℝ b.theCuboid.sides) :
    ∃ m b', b.build dbg M w = .ok (m, b') ∧ ClosedMesh m ∧
      m.points.Perm (edgeChoices.map (corner b.theCuboid.origin b.theCuboid.sides)) ∧
      m.vertices.length = 8 ∧ m.facets.length = 12 ∧
      ∀ MU, 8 ≤ MU → ∃ l, calcLineIndices dbg MU m = .ok l ∧ l.length = 2 * 18 := by
  have hM' : 3 * (cuboidTriangles b.theCuboid).length < M := by rw [cuboidTriangles_length]; omega
  obtain ⟨m, hm, hb, hh, hf, hv, he⟩ := cuboid_build dbg M w b hM
  obtain ⟨hnd, _⟩ := C68_distinct b.theCuboid hi
  have hperm := points_perm dbg M _ hM' m hb b.theCuboid.vertices hnd (cuboid_points_mem b.theCuboid)
  have h8 : m.points.length = 8 := hperm.length_eq
  have hinj : ∀ x y, corner b.theCuboid.origin b.theCuboid.sides x = corner b.theCuboid.origin b.theCuboid.sides y → x = y := by
    have := (C68_corners b.theCuboid).nodup_iff.1 hnd
    rw [List.nodup_map_iff_inj_on (by decide +kernel)] at this
    exact fun x y h => this x (C68_all_choices x) y (C68_all_choices y) h
  have hc : ClosedOriented (cuboidTriangles b.theCuboid) := by
    rw [cuboidTriangles_eq]
    exact cubeTris_closed.mapOn fun x _ y _ h => hinj x y h
  have hl : ∀ x y, (x, y) ∈ directedEdges (cuboidTriangles b.theCuboid) → x ≠ y := by
    intro x y hxy
    rw [cuboidTriangles_eq, directedEdges_map, List.mem_map] at hxy
    obtain ⟨⟨u, v⟩, huv, e⟩ := hxy
    simp only [Prod.map_apply, Prod.mk.injEq] at e
    obtain ⟨rfl, rfl⟩ := e
    exact fun e => cubeTris_loops u v huv (hinj u v e)
  refine ⟨m, _, by rw [he, if_neg (by simp [h8])], closedMesh_of dbg M w _ hM' hc hl m hm,
    hperm.trans (C68_corners b.theCuboid), by rw [hv, h8], hf, ?_⟩
  intro MU hU
  obtain ⟨l, h1, h2⟩ := line_count dbg M MU _ hM' hc hl m hb (by omega)
  exact ⟨l, h1, by rw [h2, cuboidTriangles_length]⟩

/-- **C59** Debug builds accept exactly the cuboids whose eight corners are pairwise different (release builds accept
every cuboid). -/
theorem C59_accepts (M w : Nat) (b : CuboidBuilder ℝ) (hM : 36 < M) :
    ((∃ r, b.build true M w = .ok r) ↔ (edgeChoices.map (corner b.theCuboid.origin b.theCuboid.sides)).Nodup) ∧
    ∃ r, b.build false M w = .ok r := by
  have hM' : 3 * (cuboidTriangles b.theCuboid).length < M := by rw [cuboidTriangles_length]; omega
  constructor
  · obtain ⟨m, hm, hb, hh, hf, hv, he⟩ := cuboid_build true M w b hM
    classical
    rw [← (C68_corners b.theCuboid).nodup_iff]
    have hperm : m.points.Perm b.theCuboid.vertices.dedup := points_perm true M _ hM' m hb _ (List.nodup_dedup _) (by
      intro v; rw [List.mem_dedup]; exact cuboid_points_mem b.theCuboid v)
    rw [he]
    constructor
    · rintro ⟨r, hr⟩
      by_cases h8 : m.points.length = 8
      · rw [hperm.length_eq] at h8
        have : b.theCuboid.vertices.dedup = b.theCuboid.vertices :=
          (List.dedup_sublist _).eq_of_length (by rw [h8]; rfl)
        rw [← this]; exact List.nodup_dedup _
      · rw [if_pos ⟨rfl, h8⟩] at hr; simp at hr
    · intro hnd
      have h8 : m.points.length = 8 := by rw [hperm.length_eq, hnd.dedup]; rfl
      exact ⟨_, by rw [if_neg (by simp [h8])]⟩
  · obtain ⟨m, _, _, _, _, _, he⟩ := cuboid_build false M w b hM
    exact ⟨_, by rw [he, if_neg (by simp)]⟩
end

section Examples
/-- A box given by origin and diagonal. -/
def exBox : CuboidBuilder ℝ := { origin := vec3 1 2 3, diagonal := vec3 2 (-1) 4 }

theorem exBox_independent : LinearIndependent ℝ exBox.theCuboid.sides :=
  C68_diagonal_independent _ _ (by intro i; fin_cases i <;> simp [exBox, vec3])

example : ∃ m b', exBox.build true 256 8 = .ok (m, b') ∧ ClosedMesh m ∧ m.vertices.length = 8 ∧ m.facets.length = 12 := by
  obtain ⟨m, b', h1, h2, _, h3, h4, _⟩ := C59_cuboid true 256 8 exBox (by decide) exBox_independent
  exact ⟨m, b', h1, h2, h3, h4⟩

example : ∃ r, exBox.build true 256 8 = .ok r :=
  (C59_accepts 256 8 exBox (by decide)).1.2 ((C68_corners _).nodup_iff.1 (C68_distinct _ exBox_independent).1)

example : ¬ ∃ r, ({ origin := vec3 0 0 0, diagonal := vec3 1 1 0 } : CuboidBuilder ℝ).build true 256 8 = .ok r := by
  rw [(C59_accepts 256 8 _ (by decide)).1, ← (C68_corners _).nodup_iff]
  intro h
  have h2 : (CuboidBuilder.theCuboid (T := ℝ) { origin := vec3 0 0 0, diagonal := vec3 1 1 0 }).sides 2 = (0 : Vec ℝ 3) := by
    funext j
    show (Cuboid.ofDiagonal _ _).sides 2 j = _
    rw [(C68_diagonal _ _).2.1]
    simp [vec3]
  simp [Cuboid.vertices, h2, vadd_eq] at h
end Examples
end Verif
