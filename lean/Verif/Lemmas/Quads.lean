import Verif.Lemmas.Panels
import Verif.Props.Wing

/-!
# Panels bounded by straight lines
-/

namespace HV
open Spec

/-- The points of a straight segment at the parameters `i/n`. -/
noncomputable def seg (n : ℕ) (u v : V) (i : ℕ) : V := lineAt u v ((i : ℝ) / n)

theorem lineAt_zero (u v : V) : lineAt u v 0 = u := by ext <;> simp [lineAt]

theorem lineAt_one (u v : V) : lineAt u v 1 = v := by ext <;> simp [lineAt]

theorem lineAt_flip (u v : V) (t : ℝ) : lineAt v u t = lineAt u v (1 - t) := by ext <;> simp [lineAt] <;> ring

theorem lineAt_add (u v w : V) (t : ℝ) : lineAt (u + w) (v + w) t = lineAt u v t + w := by ext <;> simp [lineAt] <;> ring

theorem lineAt_sub (u v w : V) (t : ℝ) : lineAt (u - w) (v - w) t = lineAt u v t - w := by ext <;> simp [lineAt] <;> ring

theorem seg_zero (n : ℕ) (u v : V) : seg n u v 0 = u := by simp [seg, lineAt_zero]

theorem seg_last (n : ℕ) (hn : 1 ≤ n) (u v : V) : seg n u v n = v := by
  unfold seg
  rw [div_self (by positivity), lineAt_one]

/-- The sum along a straight segment changes sign with its direction. -/
theorem pathSum_seg {A : Type} [AddCommGroup A] (φ : V → V → A) (h : Anti φ) (n : ℕ) (hn : 1 ≤ n) (u v : V) :
    pathSum φ (seg n v u) n = -pathSum φ (seg n u v) n := by
  rw [← pathSum_reverse φ h (seg n u v) n]
  apply pathSum_congr
  intro i hi
  unfold seg
  rw [lineAt_flip]
  congr 1
  have : (n : ℝ) ≠ 0 := by positivity
  rw [Nat.cast_sub hi]
  field_simp

/-- The bilinear quadrilateral with corners `a`, `b`, `c`, `d` (south-west, south-east, north-east, north-west). -/
noncomputable def bil (a b c d : V) (r s : ℝ) : V := lineAt (lineAt a b r) (lineAt d c r) s

theorem bil_add (a b c d w : V) (r s : ℝ) : bil (a + w) (b + w) (c + w) (d + w) r s = bil a b c d r s + w := by
  simp only [bil, lineAt_add]

theorem bil_sub (a b c d w : V) (r s : ℝ) : bil (a - w) (b - w) (c - w) (d - w) r s = bil a b c d r s - w := by
  simp only [bil, lineAt_sub]

/-- A Coons patch between four straight edges that meet is the bilinear quadrilateral. -/
theorem coons_quad (n e s w : PathObj) (a b c d : V) (hn : ∀ t, n.call t = .ok (lineAt d c t)) (he : ∀ t, e.call t = .ok (lineAt b c t))
    (hs : ∀ t, s.call t = .ok (lineAt a b t)) (hw : ∀ t, w.call t = .ok (lineAt a d t)) :
    ∃ F, CoonsPatch n e s w = .ok F ∧ ∀ u v, F u v = .ok (bil a b c d u v) := by
  have hk : Coons.ofEdges n e s w = .ok ⟨n, e, s, w, a, b, c, d, false, ⟨0, 0, 0⟩⟩ := by
    rw [Coons.ofEdges_ok_iff]
    exact ⟨a, b, d, c, a, d, b, c, by rw [hs, lineAt_zero], by rw [hs, lineAt_one], by rw [hn, lineAt_zero], by rw [hn, lineAt_one],
      by rw [hw, lineAt_zero], by rw [hw, lineAt_one], by rw [he, lineAt_zero], by rw [he, lineAt_one],
      cornerClose_refl _, cornerClose_refl _, cornerClose_refl _, cornerClose_refl _, rfl⟩
  refine ⟨_, by unfold CoonsPatch; rw [hk, ok_bind]; rfl, ?_⟩
  intro u v
  simp only [Coons.call, hn, he, hs, hw, bind, Except.bind, pure, Except.pure]
  congr 1
  ext <;> simp [Coons.blend, bil, lineAt] <;> ring

/-- The panel of a bilinear quadrilateral. -/
noncomputable def quad (n : ℕ) (a b c d : V) : Panel where
  P i j := bil a b c d ((i : ℝ) / n) ((j : ℝ) / n)
  S := seg n a b
  N := seg n d c
  W := seg n a d
  E := seg n b c

theorem quad_good (n : ℕ) (hn : 1 ≤ n) (ε : ℝ) (hε : 0 ≤ ε) (a b c d : V) : (quad n a b c d).Good n ε := by
  have hn0 : (n : ℝ) ≠ 0 := by positivity
  have z : ∀ {u v : V}, u = v → vdist u v ≤ ε := fun h => by rw [h, vdist_self]; exact hε
  constructor
  · simp [quad, seg_zero]
  · simp [quad, seg_zero, seg_last n hn]
  · simp [quad, seg_zero, seg_last n hn]
  · simp [quad, seg_last n hn]
  · intro i _; apply z; simp [quad, bil, seg, lineAt_zero]
  · intro i _; apply z; simp [quad, bil, seg, div_self hn0, lineAt_one]
  · intro i _; apply z; simp [quad, bil, seg, lineAt_zero]
  · intro i _; apply z; simp [quad, bil, seg, div_self hn0, lineAt_one]

/-- Moving a panel by an isometry. -/
def Panel.map (g : V → V) (p : Panel) : Panel := ⟨fun i j => g (p.P i j), g ∘ p.S, g ∘ p.N, g ∘ p.W, g ∘ p.E⟩

theorem Panel.map_good (g : V → V) (hg : ∀ u v, vdist (g u) (g v) = vdist u v) (n : ℕ) (ε : ℝ) (p : Panel) (h : p.Good n ε) :
    (p.map g).Good n ε where
  sw := congrArg g h.sw
  se := congrArg g h.se
  nw := congrArg g h.nw
  ne := congrArg g h.ne
  south i hi := by show vdist (g _) (g _) ≤ ε; rw [hg]; exact h.south i hi
  north i hi := by show vdist (g _) (g _) ≤ ε; rw [hg]; exact h.north i hi
  west i hi := by show vdist (g _) (g _) ≤ ε; rw [hg]; exact h.west i hi
  east i hi := by show vdist (g _) (g _) ≤ ε; rw [hg]; exact h.east i hi

theorem Panel.map_turn {A : Type} [AddCommGroup A] (g : V → V) (φ : V → V → A) (n : ℕ) (p : Panel) :
    (p.map g).turn φ n = p.turn (fun u v => φ (g u) (g v)) n := rfl

/-- Panels whose curves cancel, moved by an isometry. -/
theorem closedUpTo_moved (n : ℕ) (hn : 1 ≤ n) (ε : ℝ) (hε : 0 ≤ ε) (ps : List Panel) (h : ∀ p ∈ ps, p.Good n ε)
    (hs : ∀ φ : V → V → ℤ, Anti φ → (ps.map (Panel.turn φ n)).sum = 0) (g : V → V) (hg : ∀ u v, vdist (g u) (g v) = vdist u v) :
    ClosedUpTo ε ((ps.map fun p => gridMesh MeshArith.real false n n fun i j => g (p.P i j)).flatten) := by
  have := closedUpTo_panels n hn ε hε (ps.map (Panel.map g)) (by
    intro p hp
    obtain ⟨q, hq, rfl⟩ := List.mem_map.1 hp
    exact Panel.map_good g hg n ε q (h q hq)) (by
    intro φ hφ
    rw [List.map_map]
    exact hs (fun u v => φ (g u) (g v)) fun a b => hφ _ _)
  rw [List.map_map] at this
  exact this

/-- Generating and meshing a new component of the replacing kind. -/
theorem replaced_mesh (h : Heap) (id : ℕ) (out : Reso → GenOut) (hgen : (h id).gen = .replace out) (n : ℕ) (hn : 1 ≤ n)
    (hres : (h id).stl_resolution = .int n) (hm : (h id).mesh_ = none) (hs : (h id).surfaces = none)
    (hc : (h id).clustering = {}) (herr : (out (.int n)).err = none) (hk : ((out (.int n)).items.map Prod.fst).Nodup)
    (hne : (out (.int n)).items ≠ []) (Ps : List (ℕ → ℕ → V))
    (hP : List.Forall₂ (fun e P => ∀ i ≤ n, ∀ j ≤ n, e.2 ((i : ℝ) / n) ((j : ℝ) / n) = .ok (P i j)) (out (.int n)).items Ps) :
    ∃ h' M c', generatePatches h id = (.ok (), h') ∧ (h' id).patches = (out (.int n)).items ∧ (h' id).mesh = (.ok M, c') ∧
      M.tris = (Ps.map (gridMesh MeshArith.real false n n)).flatten := by
  have hg : generatePatches h id = (.ok (), h.upd id ((h id).genReplace (out (.int n))).2) := by
    simp only [generatePatches, Composite.genLeaf, hgen, Comp.genReplace, hres, herr]
  have hpat : (((h id).genReplace (out (.int n))).2).patches = (out (.int n)).items := by
    simp only [Comp.genReplace, herr]
    exact Dict.setAll_nil_nodup _ hk
  have keep : ((h id).genReplace (out (.int n))).2.stl_resolution = .int n ∧ ((h id).genReplace (out (.int n))).2.mesh_ = none ∧
      ((h id).genReplace (out (.int n))).2.surfaces = none ∧ ((h id).genReplace (out (.int n))).2.clustering = {} := by
    simp only [Comp.genReplace, herr]
    exact ⟨hres, hm, hs, hc⟩
  obtain ⟨M, c', h1, h2, _⟩ := (C52_mesh ((h id).genReplace (out (.int n))).2 n hn keep.1 keep.2.1 keep.2.2.1 (by rw [hpat]; exact hk)
    (by rw [hpat]; exact hne)).1 ((Ps.map (gridMesh MeshArith.real false n n)).flatten) (by
      rw [hpat, keep.2.2.2]
      exact meshOf_grids n hn _ Ps hP)
  exact ⟨_, M, c', hg, by rw [upd_self]; exact hpat, by rw [upd_self]; exact h1, h2⟩

end HV
