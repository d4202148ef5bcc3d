import Verif.Lemmas.Planform
import Verif.Props.Motion
import Mathlib.Analysis.SpecialFunctions.Trigonometric.ArctanDeriv
import Mathlib.Analysis.SpecialFunctions.Trigonometric.Bounds
import Mathlib.Analysis.Calculus.MeanValue

/-!
# Grids that fit together up to a gap, and how a pointwise map changes the gap
-/

namespace HV
open Spec

/-- The grids fit together up to `ε`: points of the region `B` within `ε` of the grid points can be chosen so that all sides cancel,
except along edges whose ends both satisfy `K`. -/
def Spec.Glued (n : ℕ) (ε : ℝ) (B K : V → Prop) (Gs : List (ℕ → ℕ → V)) : Prop :=
  ∃ Qs : List (ℕ → ℕ → V),
    List.Forall₂ (fun G Q => ∀ i ≤ n, ∀ j ≤ n, G i j = Q i j ∨ vdist (G i j) (Q i j) ≤ ε ∧ B (Q i j)) Gs Qs ∧
    ∀ φ : V → V → ℤ, Anti φ → (∀ u v, K u → K v → φ u v = 0) → (Qs.map (bdry φ n n)).sum = 0

/-- The curves of a panel run through the region. -/
def Panel.In (n : ℕ) (B : V → Prop) (p : Panel) : Prop := ∀ i ≤ n, B (p.S i) ∧ B (p.N i) ∧ B (p.W i) ∧ B (p.E i)

theorem Panel.snap_in (n : ℕ) (ε : ℝ) (B : V → Prop) (p : Panel) (h : p.Good n ε) (hB : p.In n B) (i j : ℕ) (hi : i ≤ n) (hj : j ≤ n) :
    p.P i j = p.snap n i j ∨ vdist (p.P i j) (p.snap n i j) ≤ ε ∧ B (p.snap n i j) := by
  unfold snap
  split_ifs with h0 h1 h2 h3
  · subst h0; exact .inr ⟨h.south i hi, (hB i hi).1⟩
  · subst h1; exact .inr ⟨h.north i hi, (hB i hi).2.1⟩
  · subst h2; exact .inr ⟨h.west j hj, (hB j hj).2.2.1⟩
  · subst h3; exact .inr ⟨h.east j hj, (hB j hj).2.2.2⟩
  · exact .inl rfl

theorem glued_panels (n : ℕ) (hn : 1 ≤ n) (ε : ℝ) (B K : V → Prop) (ps : List Panel) (h : ∀ p ∈ ps, p.Good n ε) (hB : ∀ p ∈ ps, p.In n B)
    (hs : ∀ φ : V → V → ℤ, Anti φ → (∀ u v, K u → K v → φ u v = 0) → (ps.map (Panel.turn φ n)).sum = 0) :
    Glued n ε B K (ps.map Panel.P) := by
  refine ⟨ps.map (Panel.snap n), ?_, ?_⟩
  · rw [List.forall₂_map_left_iff, List.forall₂_map_right_iff, List.forall₂_same]
    exact fun p hp i hi j hj => Panel.snap_in n ε B p (h p hp) (hB p hp) i j hi hj
  · intro φ hφ hK
    rw [List.map_map, ← hs φ hφ hK]
    congr 1
    apply List.map_congr_left
    intro p hp
    exact Panel.bdry_snap φ n hn ε p (h p hp)

theorem pathSum_map {A : Type} [AddCommGroup A] (φ : V → V → A) (f : V → V) (p : ℕ → V) (n : ℕ) :
    pathSum φ (fun i => f (p i)) n = pathSum (fun u v => φ (f u) (f v)) p n := rfl

theorem bdry_map {A : Type} [AddCommGroup A] (φ : V → V → A) (f : V → V) (n m : ℕ) (P : ℕ → ℕ → V) :
    bdry φ n m (fun i j => f (P i j)) = bdry (fun u v => φ (f u) (f v)) n m P := rfl

/-- Moving the points of the grids: the gap grows by the modulus of continuity of the map on the region. -/
theorem Spec.Glued.map {n : ℕ} {ε δ : ℝ} {B K B' K' : V → Prop} {Gs : List (ℕ → ℕ → V)} (h : Glued n ε B K Gs) (f : V → V)
    (hf : ∀ u v, B v → vdist u v ≤ ε → vdist (f u) (f v) ≤ δ) (hB : ∀ v, B v → B' (f v)) (hK : ∀ v, K v → K' (f v)) :
    Glued n δ B' K' (Gs.map fun G i j => f (G i j)) := by
  obtain ⟨Qs, h1, h2⟩ := h
  refine ⟨Qs.map fun Q i j => f (Q i j), ?_, ?_⟩
  · rw [List.forall₂_map_left_iff, List.forall₂_map_right_iff]
    refine h1.imp fun G Q h i hi j hj => ?_
    rcases h i hi j hj with h | ⟨h, hb⟩
    · exact .inl (congrArg f h)
    · exact .inr ⟨hf _ _ hb h, hB _ hb⟩
  · intro φ hφ hv
    rw [List.map_map]
    exact h2 (fun u v => φ (f u) (f v)) (fun u v => hφ _ _) (fun u v hu hv' => hv _ _ (hK u hu) (hK v hv'))

/-- The mesh of grids that fit together. -/
theorem Spec.Glued.mesh {n : ℕ} {ε : ℝ} {B K : V → Prop} {Gs : List (ℕ → ℕ → V)} (h : Glued n ε B K Gs) (hε : 0 ≤ ε) :
    ∃ m', VertsWithin ε ((Gs.map (gridMesh MeshArith.real false n n)).flatten) m' ∧
      ∀ φ : V → V → ℤ, Anti φ → (∀ u v, K u → K v → φ u v = 0) → edgeSum φ (edges m') = 0 := by
  obtain ⟨Qs, h1, h2⟩ := h
  refine ⟨(Qs.map (gridMesh MeshArith.real false n n)).flatten, ?_, ?_⟩
  · clear h2
    induction h1 with
    | nil => exact .nil
    | cons h _ ih =>
      simp only [List.map_cons, List.flatten_cons]
      refine List.rel_append (gridMesh_within n ε _ _ fun i hi j hj => ?_) ih
      rcases h i hi j hj with h | ⟨h, -⟩
      · rw [h, vdist_self]; exact hε
      · exact h
  · intro φ hφ hK
    rw [edgeSum_grids φ hφ]
    exact h2 φ hφ hK

theorem Spec.Glued.closed {n : ℕ} {ε : ℝ} {B : V → Prop} {Gs : List (ℕ → ℕ → V)} (h : Glued n ε B (fun _ => False) Gs) (hε : 0 ≤ ε) :
    ClosedUpTo ε ((Gs.map (gridMesh MeshArith.real false n n)).flatten) := by
  obtain ⟨m', h1, h2⟩ := h.mesh hε
  exact ⟨m', h1, (closed_iff_edgeSum _).2 fun φ hφ => h2 φ hφ fun _ _ h => h.elim⟩

/-- Half of a symmetric body: every edge without a partner lies in the plane of symmetry, and with the mirror image it is closed. -/
theorem Spec.Glued.half {n : ℕ} {ε : ℝ} {B : V → Prop} {Gs : List (ℕ → ℕ → V)} (h : Glued n ε B (fun v => v.y = 0) Gs) (hε : 0 ≤ ε) :
    ∃ m', VertsWithin ε ((Gs.map (gridMesh MeshArith.real false n n)).flatten) m' ∧ Closed (m' ++ mirrorMesh m') := by
  obtain ⟨m', h1, h2⟩ := h.mesh hε
  refine ⟨m', h1, ?_⟩
  rw [closed_iff_edgeSum]
  intro φ hφ
  rw [show edges (m' ++ mirrorMesh m') = edges m' ++ edges (mirrorMesh m') from List.flatMap_append, edgeSum_append, edgeSum_mirror φ hφ]
  have e : ∀ p : V, p.y = 0 → mirrorY p = p := fun p hp => by ext <;> simp [mirrorY, hp]
  have hs : ∀ (l : List (V × V)), edgeSum (fun u v => φ u v - φ (mirrorY u) (mirrorY v)) l =
      edgeSum φ l - edgeSum (fun u v => φ (mirrorY u) (mirrorY v)) l := by
    intro l
    induction l with
    | nil => simp [edgeSum]
    | cons a l ih =>
      simp only [edgeSum, List.map_cons, List.sum_cons] at ih ⊢
      rw [ih]; ring
  have := h2 (fun u v => φ u v - φ (mirrorY u) (mirrorY v)) (fun u v => by
    show _ - _ = -(_ - _)
    rw [hφ u v, hφ (mirrorY u) (mirrorY v)]; ring) (fun u v hu hv => by rw [e u hu, e v hv]; ring)
  rw [hs] at this
  linarith

/-! ## Patches -/

/-- The patches have the grid points. -/
def GridsOf (n : ℕ) (ps : List (String × Surf)) (Gs : List (ℕ → ℕ → V)) : Prop :=
  List.Forall₂ (fun (e : String × Surf) G => ∀ i ≤ n, ∀ j ≤ n, e.2 ((i : ℝ) / n) ((j : ℝ) / n) = .ok (G i j)) ps Gs

theorem grids_samples {n : ℕ} {l : List (String × Surf)} {ps : List Panel} (h : Grids n l ps) : GridsOf n l (ps.map Panel.P) := by
  unfold GridsOf
  rw [List.forall₂_map_right_iff]
  exact h

theorem samples_acts {n : ℕ} {c c' : Comp} {f : V → V} (ha : ActsOnPatches (fun p q => q = f p) c c') {Gs : List (ℕ → ℕ → V)}
    (h : GridsOf n c.patches Gs) : GridsOf n c'.patches (Gs.map fun G i j => f (G i j)) := by
  unfold GridsOf at *
  rw [List.forall₂_map_right_iff]
  have key : ∀ (l l' : List (String × Surf)) (Gs : List (ℕ → ℕ → V)), List.Forall₂ (fun e e' => e'.1 = e.1 ∧
      (∀ r s p, e.2 r s = .ok p → ∃ q, e'.2 r s = .ok q ∧ q = f p) ∧ (∀ r s x, e.2 r s = .error x → e'.2 r s = .error x)) l l' →
      List.Forall₂ (fun (e : String × Surf) G => ∀ i ≤ n, ∀ j ≤ n, e.2 ((i : ℝ) / n) ((j : ℝ) / n) = .ok (G i j)) l Gs →
      List.Forall₂ (fun (e : String × Surf) G => ∀ i ≤ n, ∀ j ≤ n, e.2 ((i : ℝ) / n) ((j : ℝ) / n) = .ok (f (G i j))) l' Gs := by
    intro l l' Gs h1 h2
    induction h1 generalizing Gs with
    | nil => cases h2; exact .nil
    | cons h _ ih =>
      cases h2 with
      | cons g gs =>
        refine .cons (fun i hi j hj => ?_) (ih _ gs)
        obtain ⟨q, hq, rfl⟩ := h.2.1 _ _ _ (g i hi j hj)
        exact hq
  exact key _ _ _ ha.2 h

/-- The mesh of a component from the grid points of its patches. -/
theorem samples_mesh (c : Comp) (n : ℕ) (hn : 1 ≤ n) (hr : c.stl_resolution = .int n) (hm : c.mesh_ = none) (hs : c.surfaces = none)
    (hc : c.clustering = {}) (hk : (c.patches.map Prod.fst).Nodup) (hne : c.patches ≠ []) (Gs : List (ℕ → ℕ → V)) (h : GridsOf n c.patches Gs) :
    ∃ M c', c.mesh = (.ok M, c') ∧ M.tris = (Gs.map (gridMesh MeshArith.real false n n)).flatten := by
  obtain ⟨M, c', h1, h2, -⟩ := (C52_mesh c n hn hr hm hs hk hne).1 _ (by rw [hc]; exact meshOf_grids n hn c.patches Gs h)
  exact ⟨M, c', h1, h2⟩

/-! ## Curvatures -/

theorem arctan_lipschitz (a b : ℝ) : |Real.arctan a - Real.arctan b| ≤ |a - b| := by
  have := Convex.norm_image_sub_le_of_norm_hasDerivWithin_le (f := Real.arctan) (f' := fun x => 1 / (1 + x ^ 2)) (s := Set.univ) (C := 1) (x := b) (y := a)
    (fun x _ => (Real.hasDerivAt_arctan x).hasDerivWithinAt) (fun x _ => by
      rw [Real.norm_of_nonneg (by positivity), div_le_one (by positivity)]
      nlinarith [sq_nonneg x]) convex_univ (Set.mem_univ _) (Set.mem_univ _)
  simpa [Real.norm_eq_abs] using this

theorem arctan2_one (m : ℝ) : Arc.arctan2 m 1 = Real.arctan m := by
  unfold Arc.arctan2
  rw [Complex.arg_of_re_nonneg (by norm_num), Real.arctan_eq_arcsin]
  congr 2
  rw [Complex.norm_def, Complex.normSq_mk]
  congr 1; ring

/-- The coordinates of a curved point. -/
theorem curvePt_x (k : Curvature) (hd : k.direction = "x") (p : V) (f m : ℝ) (hf : k.fn p.x p.y = .ok f) (hm : k.fn_dash p.x p.y = .ok m) :
    curvePt k p = ⟨p.x - p.z * Real.sin (Real.arctan m), p.y, p.z * Real.cos (Real.arctan m) + f⟩ := by
  simp [curvePt, CurvedPatch, hf, hm, hd, bind, Except.bind, pure, Except.pure, okv, arctan2_one]

theorem curvePt_y (k : Curvature) (hd : k.direction = "y") (p : V) (f m : ℝ) (hf : k.fn p.x p.y = .ok f) (hm : k.fn_dash p.x p.y = .ok m) :
    curvePt k p = ⟨p.x, p.y - p.z * Real.sin (Real.arctan m), f + p.z * Real.cos (Real.arctan m)⟩ := by
  simp [curvePt, CurvedPatch, hf, hm, hd, bind, Except.bind, pure, Except.pure, okv, arctan2_one]

theorem swing_bound {z z' m m' Z : ℝ} (hZ : |z'| ≤ Z) :
    |z * Real.sin (Real.arctan m) - z' * Real.sin (Real.arctan m')| ≤ |z - z'| + Z * |m - m'| ∧
    |z * Real.cos (Real.arctan m) - z' * Real.cos (Real.arctan m')| ≤ |z - z'| + Z * |m - m'| := by
  have hZ0 := (abs_nonneg _).trans hZ
  have s1 := (Real.abs_sin_sub_sin_le (Real.arctan m) (Real.arctan m')).trans (arctan_lipschitz m m')
  have s2 := (Real.abs_cos_sub_cos_le (Real.arctan m) (Real.arctan m')).trans (arctan_lipschitz m m')
  constructor
  · rw [show z * Real.sin (Real.arctan m) - z' * Real.sin (Real.arctan m') = (z - z') * Real.sin (Real.arctan m) +
      z' * (Real.sin (Real.arctan m) - Real.sin (Real.arctan m')) by ring]
    refine (abs_add_le _ _).trans (add_le_add ?_ ?_)
    · rw [abs_mul]
      exact mul_le_of_le_one_right (abs_nonneg _) (Real.abs_sin_le_one _)
    · rw [abs_mul]
      exact mul_le_mul hZ s1 (abs_nonneg _) hZ0
  · rw [show z * Real.cos (Real.arctan m) - z' * Real.cos (Real.arctan m') = (z - z') * Real.cos (Real.arctan m) +
      z' * (Real.cos (Real.arctan m) - Real.cos (Real.arctan m')) by ring]
    refine (abs_add_le _ _).trans (add_le_add ?_ ?_)
    · rw [abs_mul]
      exact mul_le_of_le_one_right (abs_nonneg _) (Real.abs_cos_le_one _)
    · rw [abs_mul]
      exact mul_le_mul hZ s2 (abs_nonneg _) hZ0

theorem vdist_coords (u v : V) : |u.x - v.x| ≤ vdist u v ∧ |u.y - v.y| ≤ vdist u v ∧ |u.z - v.z| ≤ vdist u v := by
  have h := vdist_sq u v
  have h0 := vdist_nonneg u v
  refine ⟨abs_le_of_sq_le_sq ?_ h0, abs_le_of_sq_le_sq ?_ h0, abs_le_of_sq_le_sq ?_ h0⟩ <;>
    nlinarith [sq_nonneg (u.x - v.x), sq_nonneg (u.y - v.y), sq_nonneg (u.z - v.z)]

/-- Two points apart by `ε` are apart by no more than a multiple of `ε` after bending. -/
theorem curvePt_near (k : Curvature) (hd : k.direction = "x" ∨ k.direction = "y") (u v : V) (f f' m m' ε Z K1 K2 : ℝ)
    (hf : k.fn u.x u.y = .ok f) (hm : k.fn_dash u.x u.y = .ok m) (hf' : k.fn v.x v.y = .ok f') (hm' : k.fn_dash v.x v.y = .ok m')
    (hd' : vdist u v ≤ ε) (hZ : |v.z| ≤ Z) (h1 : |f - f'| ≤ K1 * ε) (h2 : |m - m'| ≤ K2 * ε) :
    vdist (curvePt k u) (curvePt k v) ≤ (5 + 2 * Z * K2 + K1) * ε := by
  obtain ⟨c1, c2, c3⟩ := vdist_coords u v
  have hZ0 := (abs_nonneg _).trans hZ
  obtain ⟨b1, b2⟩ := swing_bound (z := u.z) (m := m) (m' := m') hZ
  have hzm : Z * |m - m'| ≤ Z * (K2 * ε) := mul_le_mul_of_nonneg_left h2 hZ0
  have hε := (vdist_nonneg u v).trans hd'
  rcases hd with hd | hd
  · rw [curvePt_x k hd u f m hf hm, curvePt_x k hd v f' m' hf' hm']
    refine (vdist_le_of (a := 2 * ε + Z * (K2 * ε)) (b := ε) (c := ε + Z * (K2 * ε) + K1 * ε) ?_ ?_ ?_).trans (by nlinarith)
    · simp only
      rw [show u.x - u.z * Real.sin (Real.arctan m) - (v.x - v.z * Real.sin (Real.arctan m')) = (u.x - v.x) -
        (u.z * Real.sin (Real.arctan m) - v.z * Real.sin (Real.arctan m')) by ring]
      refine (abs_sub _ _).trans ?_
      linarith
    · simp only; linarith
    · simp only
      rw [show u.z * Real.cos (Real.arctan m) + f - (v.z * Real.cos (Real.arctan m') + f') = (u.z * Real.cos (Real.arctan m) -
        v.z * Real.cos (Real.arctan m')) + (f - f') by ring]
      refine (abs_add_le _ _).trans ?_
      linarith
  · rw [curvePt_y k hd u f m hf hm, curvePt_y k hd v f' m' hf' hm']
    refine (vdist_le_of (a := ε) (b := 2 * ε + Z * (K2 * ε)) (c := ε + Z * (K2 * ε) + K1 * ε) ?_ ?_ ?_).trans (by nlinarith)
    · simp only; linarith
    · simp only
      rw [show u.y - u.z * Real.sin (Real.arctan m) - (v.y - v.z * Real.sin (Real.arctan m')) = (u.y - v.y) -
        (u.z * Real.sin (Real.arctan m) - v.z * Real.sin (Real.arctan m')) by ring]
      refine (abs_sub _ _).trans ?_
      linarith
    · simp only
      rw [show f + u.z * Real.cos (Real.arctan m) - (f' + v.z * Real.cos (Real.arctan m')) = (u.z * Real.cos (Real.arctan m) -
        v.z * Real.cos (Real.arctan m')) + (f - f') by ring]
      refine (abs_add_le _ _).trans ?_
      linarith

/-- The map of a list of curvatures, first to last. -/
noncomputable def curveAll (l : List Curvature) (p : V) : V := l.foldl (fun p k => curvePt k p) p

/-- `curve()` moves every patch point by this map. -/
theorem curve_maps (c : Comp) (l : List Curvature) (hc : c.curvatures = some l) (hl : ∀ k ∈ l, (k.direction = "x" ∨ k.direction = "y") ∧
    ∀ x y, ∃ f m, k.fn x y = .ok f ∧ k.fn_dash x y = .ok m) : ActsOnPatches (fun p q => q = curveAll l p) c c.curve := by
  have e : c.curve = { c with patches := l.foldl (fun d k =>
      d.mapVals fun _ p => CurvedPatch p (some k.direction) (some k.fn) (some k.fn_dash)) c.patches } := by
    simp [Comp.curve, hc]
  rw [e]
  clear e hc
  refine ⟨rfl, ?_⟩
  show List.Forall₂ _ c.patches _
  generalize c.patches = d
  induction l generalizing d with
  | nil => exact (acts_refl { c with patches := d }).2
  | cons k l ih =>
    have h1 : ActsOnPatches (fun p q => q = curvePt k p) { c with patches := d } { c with
        patches := d.mapVals fun _ p => CurvedPatch p (some k.direction) (some k.fn) (some k.fn_dash) } := by
      apply actsOnPatches_mapVals _ { c with patches := d } fun p => CurvedPatch p (some k.direction) (some k.fn) (some k.fn_dash)
      · intro surf r s p hp
        obtain ⟨hd, hf⟩ := hl k (by simp)
        obtain ⟨f, m, hf, hm⟩ := hf p.x p.y
        refine ⟨_, ?_, rfl⟩
        rcases hd with hd | hd <;>
          simp [curvePt, CurvedPatch, hp, hf, hm, hd, bind, Except.bind, pure, Except.pure, okv]
      · intro surf r s x hx
        simp [CurvedPatch, hx, bind, Except.bind]
    have h2 := ih (fun k' hk' => hl k' (List.mem_cons_of_mem _ hk')) (d.mapVals fun _ p =>
        CurvedPatch p (some k.direction) (some k.fn) (some k.fn_dash))
    have h3 : ActsOnPatches (fun p q => q = curveAll l p)
        { c with patches := d.mapVals fun _ p => CurvedPatch p (some k.direction) (some k.fn) (some k.fn_dash) }
        { c with patches := l.foldl (fun d k => d.mapVals fun _ p => CurvedPatch p (some k.direction) (some k.fn)
          (some k.fn_dash)) (d.mapVals fun _ p => CurvedPatch p (some k.direction) (some k.fn) (some k.fn_dash)) } := ⟨rfl, h2⟩
    exact (acts_trans h1 h3).2

end HV
