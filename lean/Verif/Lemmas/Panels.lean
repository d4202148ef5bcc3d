import Verif.Lemmas.Watertight
import Verif.Props.Rigid

/-!
# Meshes of patches that meet up to a small gap
-/

namespace HV
open Spec

/-- Triangle by triangle and vertex by vertex, the two meshes are within `ε`. -/
def Spec.VertsWithin (ε : ℝ) (m m' : TriMesh ℝ) : Prop :=
  List.Forall₂ (fun t t' => vdist t.v0 t'.v0 ≤ ε ∧ vdist t.v1 t'.v1 ≤ ε ∧ vdist t.v2 t'.v2 ≤ ε) m m'

/-- Watertight up to `ε`: moving every vertex by at most `ε` makes the mesh closed and consistently oriented. -/
def Spec.ClosedUpTo (ε : ℝ) (m : TriMesh ℝ) : Prop := ∃ m', VertsWithin ε m m' ∧ Closed m'

theorem vdist_self (u : V) : vdist u u = 0 := dist_self _

theorem vdist_nonneg (u v : V) : 0 ≤ vdist u v := dist_nonneg

theorem vdist_comm (u v : V) : vdist u v = vdist v u := dist_comm _ _

theorem vdist_triangle (u v w : V) : vdist u w ≤ vdist u v + vdist v w := dist_triangle _ _ _

theorem eq_of_vdist_nonpos {u v : V} (h : vdist u v ≤ 0) : u = v :=
  Vec.toE_injective (dist_le_zero.1 h)

theorem vdist_add_right (u v w : V) : vdist (u + w) (v + w) = vdist u v := by
  unfold vdist; rw [Vec.toE_add, Vec.toE_add, dist_add_right]

theorem vdist_add_left (u v w : V) : vdist (w + u) (w + v) = vdist u v := by
  unfold vdist; rw [Vec.toE_add, Vec.toE_add, dist_add_left]

/-- A bound on a distance from the coordinates. -/
theorem vdist_le_of {u v : V} {a b c : ℝ} (hx : |u.x - v.x| ≤ a) (hy : |u.y - v.y| ≤ b) (hz : |u.z - v.z| ≤ c) :
    vdist u v ≤ a + b + c := by
  have ha := (abs_nonneg _).trans hx
  have hb := (abs_nonneg _).trans hy
  have hc := (abs_nonneg _).trans hz
  have h := vdist_sq u v
  have h1 : (u.x - v.x) ^ 2 ≤ a ^ 2 := sq_le_sq' (by linarith [abs_le.1 hx]) (abs_le.1 hx).2
  have h2 : (u.y - v.y) ^ 2 ≤ b ^ 2 := sq_le_sq' (by linarith [abs_le.1 hy]) (abs_le.1 hy).2
  have h3 : (u.z - v.z) ^ 2 ≤ c ^ 2 := sq_le_sq' (by linarith [abs_le.1 hz]) (abs_le.1 hz).2
  apply abs_le_of_sq_le_sq' _ (by positivity) |>.2
  nlinarith [mul_nonneg ha hb, mul_nonneg ha hc, mul_nonneg hb hc]

theorem closedUpTo_zero (m : TriMesh ℝ) : ClosedUpTo 0 m ↔ Closed m := by
  constructor
  · rintro ⟨m', h, hc⟩
    have : m = m' := by
      refine List.forall₂_eq_eq_eq ▸ h.imp ?_
      rintro ⟨a, b, c⟩ ⟨a', b', c'⟩ ⟨h1, h2, h3⟩
      exact Tri.mk.injEq .. ▸ ⟨eq_of_vdist_nonpos h1, eq_of_vdist_nonpos h2, eq_of_vdist_nonpos h3⟩
    exact this ▸ hc
  · intro h
    refine ⟨m, ?_, h⟩
    apply List.forall₂_same.2
    intro t _
    simp [vdist_self]

theorem edges_within {ε : ℝ} {m m' : TriMesh ℝ} (h : VertsWithin ε m m') :
    List.Forall₂ (fun e e' : V × V => vdist e.1 e'.1 ≤ ε ∧ vdist e.2 e'.2 ≤ ε) (edges m) (edges m') := by
  unfold VertsWithin at h
  induction h with
  | nil => exact .nil
  | cons h _ ih =>
    obtain ⟨h0, h1, h2⟩ := h
    exact .cons ⟨h0, h1⟩ (.cons ⟨h1, h2⟩ (.cons ⟨h2, h0⟩ ih))

theorem edgeCount_pos {W : Type} {l : List (W × W)} {a b : W} : 0 < edgeCount l a b ↔ (a, b) ∈ l := by
  classical
  unfold edgeCount
  exact List.count_pos_iff

/-- A mesh with an edge whose reverse is nowhere near cannot be closed by small displacements. -/
theorem not_closedUpTo {ε : ℝ} {m : TriMesh ℝ} (a b : V) (h : (a, b) ∈ edges m)
    (hn : ∀ e ∈ edges m, 2 * ε < vdist e.1 b ∨ 2 * ε < vdist e.2 a) : ¬ ClosedUpTo ε m := by
  classical
  rintro ⟨m', hw, hc⟩
  have hE := edges_within hw
  obtain ⟨k, hk, hka⟩ := List.getElem_of_mem h
  have hk' : k < (edges m').length := hE.length_eq ▸ hk
  have h1 := List.forall₂_iff_get.1 hE |>.2 k hk hk'
  simp only [List.get_eq_getElem, hka] at h1
  set e := (edges m')[k] with he
  have hmem : (e.1, e.2) ∈ edges m' := List.getElem_mem _
  have hcount : 0 < edgeCount (edges m') e.2 e.1 := by
    rw [← hc e.1 e.2]
    exact edgeCount_pos.2 hmem
  have hmem' : (e.2, e.1) ∈ edges m' := edgeCount_pos.1 hcount
  obtain ⟨l, hl, hle⟩ := List.getElem_of_mem hmem'
  have hl' : l < (edges m).length := hE.length_eq ▸ hl
  have h2 := List.forall₂_iff_get.1 hE |>.2 l hl' hl
  simp only [List.get_eq_getElem, hle] at h2
  rcases hn _ (List.getElem_mem hl') with h3 | h3
  · have := vdist_triangle ((edges m)[l]).1 e.2 b
    rw [vdist_comm e.2 b] at this
    linarith [h1.2, h2.1]
  · have := vdist_triangle ((edges m)[l]).2 e.1 a
    rw [vdist_comm e.1 a] at this
    linarith [h1.1, h2.2]

/-! ## Panels -/

/-- A grid of points with the four curves its sides should lie on. -/
structure Panel where
  P : ℕ → ℕ → V
  S : ℕ → V
  N : ℕ → V
  W : ℕ → V
  E : ℕ → V

namespace Panel

/-- The four curves meet in the corners, and the sides are within `ε` of them. -/
structure Good (n : ℕ) (ε : ℝ) (p : Panel) : Prop where
  sw : p.S 0 = p.W 0
  se : p.S n = p.E 0
  nw : p.N 0 = p.W n
  ne : p.N n = p.E n
  south : ∀ i ≤ n, vdist (p.P i 0) (p.S i) ≤ ε
  north : ∀ i ≤ n, vdist (p.P i n) (p.N i) ≤ ε
  west : ∀ j ≤ n, vdist (p.P 0 j) (p.W j) ≤ ε
  east : ∀ j ≤ n, vdist (p.P n j) (p.E j) ≤ ε

/-- The sum along the four curves. -/
def turn {A : Type} [AddCommGroup A] (φ : V → V → A) (n : ℕ) (p : Panel) : A :=
  pathSum φ p.S n + pathSum φ p.E n - pathSum φ p.N n - pathSum φ p.W n

/-- The grid with its sides moved onto the curves. -/
def snap (n : ℕ) (p : Panel) (i j : ℕ) : V :=
  if j = 0 then p.S i else if j = n then p.N i else if i = 0 then p.W j else if i = n then p.E j else p.P i j

theorem bdry_snap {A : Type} [AddCommGroup A] (φ : V → V → A) (n : ℕ) (hn : 1 ≤ n) (ε : ℝ) (p : Panel) (h : p.Good n ε) :
    bdry φ n n (p.snap n) = p.turn φ n := by
  unfold bdry turn
  congr 1
  · congr 1
    · congr 1
      apply pathSum_congr
      intro j hj
      by_cases h0 : j = 0
      · subst h0; simp [snap, h.se]
      · by_cases h1 : j = n
        · subst h1; simp [snap, h0, h.ne]
        · simp [snap, h0, h1, show n ≠ 0 by omega]
    · apply pathSum_congr
      intro i hi
      simp [snap, show n ≠ 0 by omega]
  · apply pathSum_congr
    intro j hj
    by_cases h0 : j = 0
    · subst h0; simp [snap, h.sw]
    · by_cases h1 : j = n
      · subst h1; simp [snap, h0, h.nw]
      · simp [snap, h0, h1]

theorem snap_near (n : ℕ) (ε : ℝ) (hε : 0 ≤ ε) (p : Panel) (h : p.Good n ε) (i j : ℕ) (hi : i ≤ n) (hj : j ≤ n) :
    vdist (p.P i j) (p.snap n i j) ≤ ε := by
  unfold snap
  split_ifs with h0 h1 h2 h3
  · subst h0; exact h.south i hi
  · subst h1; exact h.north i hi
  · subst h2; exact h.west j hj
  · subst h3; exact h.east j hj
  · rw [vdist_self]; exact hε

end Panel

theorem centre_near {ε : ℝ} {a b c d a' b' c' d' : V} (ha : vdist a a' ≤ ε) (hb : vdist b b' ≤ ε) (hc : vdist c c' ≤ ε)
    (hd : vdist d d' ≤ ε) :
    vdist (cellCentre MeshArith.real a b c d) (cellCentre MeshArith.real a' b' c' d') ≤ ε := by
  have e : ∀ a b c d : V, cellCentre MeshArith.real a b c d = (a + b + c + d) * (1 / 4 : ℝ) := by
    intro a b c d
    ext <;> simp [cellCentre, MeshArith.real] <;> norm_num <;> ring
  unfold vdist at *
  rw [e, e, Vec.toE_mul, Vec.toE_mul]
  simp only [Vec.toE_add]
  rw [dist_smul₀]
  have h1 := dist_add_add_le (toE a + toE b + toE c) (toE d) (toE a' + toE b' + toE c') (toE d')
  have h2 := dist_add_add_le (toE a + toE b) (toE c) (toE a' + toE b') (toE c')
  have h3 := dist_add_add_le (toE a) (toE b) (toE a') (toE b')
  rw [Real.norm_of_nonneg (by norm_num)]
  linarith

/-- Meshes of nearby grids are nearby. -/
theorem gridMesh_within (n : ℕ) (ε : ℝ) (P Q : ℕ → ℕ → V) (h : ∀ i ≤ n, ∀ j ≤ n, vdist (P i j) (Q i j) ≤ ε) :
    VertsWithin ε (gridMesh MeshArith.real false n n P) (gridMesh MeshArith.real false n n Q) := by
  have flat : ∀ (l : List ℕ) (F G : ℕ → TriMesh ℝ), (∀ i ∈ l, VertsWithin ε (F i) (G i)) →
      VertsWithin ε (l.map F).flatten (l.map G).flatten := by
    intro l F G hl
    induction l with
    | nil => exact .nil
    | cons a l ih =>
      rw [List.map_cons, List.map_cons, List.flatten_cons, List.flatten_cons]
      exact List.rel_append (hl a (by simp)) (ih fun i hi => hl i (by simp [hi]))
  unfold gridMesh
  apply flat
  intro i hi
  apply flat
  intro j hj
  have hi := List.mem_range.1 hi
  have hj := List.mem_range.1 hj
  have h00 := h i (by omega) j (by omega)
  have h10 := h (i + 1) (by omega) j (by omega)
  have h01 := h i (by omega) (j + 1) (by omega)
  have h11 := h (i + 1) (by omega) (j + 1) (by omega)
  have hc := centre_near h00 h10 h01 h11
  unfold cellTris
  simp only [meshVertex_real]
  exact .cons ⟨h00, h10, hc⟩ (.cons ⟨h10, h11, hc⟩ (.cons ⟨h11, h01, hc⟩ (.cons ⟨h01, h00, hc⟩ .nil)))

/-- Panels whose curves cancel have a mesh that is watertight up to the gap. -/
theorem closedUpTo_panels (n : ℕ) (hn : 1 ≤ n) (ε : ℝ) (hε : 0 ≤ ε) (ps : List Panel) (h : ∀ p ∈ ps, p.Good n ε)
    (hs : ∀ φ : V → V → ℤ, Anti φ → (ps.map (Panel.turn φ n)).sum = 0) :
    ClosedUpTo ε ((ps.map fun p => gridMesh MeshArith.real false n n p.P).flatten) := by
  refine ⟨((ps.map (Panel.snap n)).map (gridMesh MeshArith.real false n n)).flatten, ?_, ?_⟩
  · clear hs
    induction ps with
    | nil => exact .nil
    | cons p ps ih =>
      simp only [List.map_cons, List.flatten_cons]
      exact List.rel_append (gridMesh_within n ε _ _ fun i hi j hj => Panel.snap_near n ε hε p (h p (by simp)) i j hi hj)
        (ih fun q hq => h q (by simp [hq]))
  · rw [closed_iff_edgeSum]
    intro φ hφ
    rw [edgeSum_grids φ hφ, List.map_map, ← hs φ hφ]
    congr 1
    apply List.map_congr_left
    intro p hp
    exact Panel.bdry_snap φ n hn ε p (h p hp)

end HV
