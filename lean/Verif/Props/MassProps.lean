import Verif.Props.Inertia
import Verif.Props.Hifire8
import Verif.Props.Wedge

/-!
# Property C111: the volume, mass and centre of gravity that the analysis reports
-/

namespace HV
open Spec Veh

namespace Spec

/-- The sum of the pairwise products of three numbers, squares included (`f2` in numpy-stl). -/
def pairs (a b c : ℝ) : ℝ := a * a + b * b + c * c + a * b + b * c + c * a

/-- What numpy-stl (not part of the repository) computes for the volume, `∑ Nₓ (x₀ + x₁ + x₂) / 6`, `N` being twice the vector area of a triangle. -/
noncomputable def stlVolume (m : TriMesh ℝ) : ℝ := (m.map fun t => triArea2 t 0 * (t.v0.x + t.v1.x + t.v2.x)).sum / 6

/-- What numpy-stl computes for the volume times the centre of gravity. -/
noncomputable def stlMoment (m : TriMesh ℝ) : V :=
  ⟨(m.map fun t => triArea2 t 0 * pairs t.v0.x t.v1.x t.v2.x).sum / 24, (m.map fun t => triArea2 t 1 * pairs t.v0.y t.v1.y t.v2.y).sum / 24,
   (m.map fun t => triArea2 t 2 * pairs t.v0.z t.v1.z t.v2.z).sum / 24⟩

/-- The library computes volume, mass and centre of gravity as numpy-stl's `get_mass_properties_with_density` does.  Where the volume is
zero nothing is assumed about the centre of gravity (numpy-stl divides by the volume). -/
structure NumpyStl (lib : Lib) : Prop where
  volume : ∀ M ρ q, lib.massProps M ρ = .ok q → q.volume = stlVolume M.tris
  mass : ∀ M ρ q, lib.massProps M ρ = .ok q → q.mass = ρ * q.volume
  cog : ∀ M ρ q, lib.massProps M ρ = .ok q → q.volume ≠ 0 → q.cog = stlMoment M.tris * (1 / q.volume)

/-- The first moment of the solid bounded by a mesh: every triangle contributes the tetrahedron it spans with the origin, of volume `det / 6`
and centre at a quarter of the sum of the corners. -/
noncomputable def firstMoment (m : TriMesh ℝ) : V :=
  ⟨(m.map fun t => det3 t.v0 t.v1 t.v2 / 6 * ((t.v0.x + t.v1.x + t.v2.x) / 4)).sum,
   (m.map fun t => det3 t.v0 t.v1 t.v2 / 6 * ((t.v0.y + t.v1.y + t.v2.y) / 4)).sum,
   (m.map fun t => det3 t.v0 t.v1 t.v2 / 6 * ((t.v0.z + t.v1.z + t.v2.z) / 4)).sum⟩

/-- The centre of the solid bounded by a mesh. -/
noncomputable def centroid (m : TriMesh ℝ) : V := firstMoment m * (1 / signedVolume m)

end Spec

/-- Summing over the triangles a quantity that is a sum over their edges. -/
theorem sum_tris (φ : V → V → ℝ) (m : TriMesh ℝ) :
    (m.map fun t => φ t.v0 t.v1 + φ t.v1 t.v2 + φ t.v2 t.v0).sum = edgeSum φ (edges m) := by
  induction m with
  | nil => rfl
  | cons t m ih =>
    have : edges (t :: m) = triEdges t ++ edges m := rfl
    rw [this, edgeSum_append, List.map_cons, List.sum_cons, ih]
    simp [triEdges, edgeSum]
    ring

theorem closed_sum {m : TriMesh ℝ} (h : Closed m) {φ : V → V → ℝ} (hφ : Anti φ) {f g : Tri ℝ → ℝ}
    (he : ∀ t, f t - g t = φ t.v0 t.v1 + φ t.v1 t.v2 + φ t.v2 t.v0) : (m.map f).sum = (m.map g).sum := by
  have h0 : edgeSum φ (edges m) = 0 := edgeSum_eq_zero_of_balanced φ hφ (fun a ha => by linarith) _ h
  rw [← sum_tris] at h0
  have : ∀ m : TriMesh ℝ, (m.map f).sum = (m.map g).sum + (m.map fun t => φ t.v0 t.v1 + φ t.v1 t.v2 + φ t.v2 t.v0).sum := by
    intro m
    induction m with
    | nil => simp
    | cons t m ih => simp only [List.map_cons, List.sum_cons, ih, ← he t]; ring
  rw [this m, h0, add_zero]

theorem sum_div (l : List ℝ) (c : ℝ) : l.sum / c = (l.map fun x => x / c).sum := by
  induction l with
  | nil => simp
  | cons a l ih => simp only [List.sum_cons, List.map_cons, add_div, ih]

theorem stlVolume_closed {m : TriMesh ℝ} (h : Closed m) : stlVolume m = signedVolume m := by
  unfold stlVolume signedVolume
  rw [sum_div, List.map_map]
  refine closed_sum h (φ := fun u v => (u.x + v.x) * (u.y * v.z - u.z * v.y) / 6) (fun a b => by ring) fun t => ?_
  simp only [Function.comp, triArea2, det3, Matrix.cons_val_zero]
  ring

theorem stlMoment_closed {m : TriMesh ℝ} (h : Closed m) : stlMoment m = firstMoment m := by
  unfold stlMoment firstMoment
  ext
  · simp only
    rw [sum_div, List.map_map]
    refine closed_sum h (φ := fun u v => (u.x * u.x + u.x * v.x + v.x * v.x) * (u.y * v.z - u.z * v.y) / 24) (fun a b => by ring) fun t => ?_
    simp only [Function.comp, triArea2, det3, pairs, Matrix.cons_val_zero]
    ring
  · simp only
    rw [sum_div, List.map_map]
    refine closed_sum h (φ := fun u v => (u.y * u.y + u.y * v.y + v.y * v.y) * (u.z * v.x - u.x * v.z) / 24) (fun a b => by ring) fun t => ?_
    simp only [Function.comp, triArea2, det3, pairs, Matrix.cons_val]
    ring
  · simp only
    rw [sum_div, List.map_map]
    refine closed_sum h (φ := fun u v => (u.z * u.z + u.z * v.z + v.z * v.z) * (u.x * v.y - u.y * v.x) / 24) (fun a b => by ring) fun t => ?_
    simp only [Function.comp, triArea2, det3, pairs, Matrix.cons_val]
    ring

theorem stlVolume_append (m m' : TriMesh ℝ) : stlVolume (m ++ m') = stlVolume m + stlVolume m' := by
  simp [stlVolume]; ring

theorem stlVolume_mirrorV (i : Fin 3) (m : TriMesh ℝ) : stlVolume (mapVerts (mirrorV i) m) = -stlVolume m := by
  induction m with
  | nil => simp [stlVolume, mapVerts]
  | cons t m ih =>
    have e1 : stlVolume (t :: m) = triArea2 t 0 * (t.v0.x + t.v1.x + t.v2.x) / 6 + stlVolume m := by simp [stlVolume]; ring
    have e2 : stlVolume (mapVerts (mirrorV i) (t :: m)) =
        triArea2 ⟨mirrorV i t.v0, mirrorV i t.v1, mirrorV i t.v2⟩ 0 * ((mirrorV i t.v0).x + (mirrorV i t.v1).x + (mirrorV i t.v2).x) / 6 +
          stlVolume (mapVerts (mirrorV i) m) := by
      simp [stlVolume, mapVerts]; ring
    rw [e1, e2, ih]
    fin_cases i <;> simp [triArea2, mirrorV] <;> ring

/-- C111 for one component: if its mesh is closed, the reported volume is the (signed) volume it encloses, the mass is density times this
volume, and the centre of gravity is the centre of the solid. -/
theorem C111_component (lib : Lib) (hl : NumpyStl lib) (M : StlMesh) (hM : Closed M.tris) (ρ : ℝ) (q : MassProps) (h : lib.massProps M ρ = .ok q) :
    q.volume = signedVolume M.tris ∧ q.mass = ρ * signedVolume M.tris ∧ (signedVolume M.tris ≠ 0 → q.cog = centroid M.tris) := by
  have hv : q.volume = signedVolume M.tris := by rw [hl.volume M ρ q h, stlVolume_closed hM]
  refine ⟨hv, by rw [hl.mass M ρ q h, hv], fun h0 => ?_⟩
  rw [hl.cog M ρ q h (by rw [hv]; exact h0), stlMoment_closed hM, hv, centroid]

namespace Spec

/-- The component found under the name `e.1` has a closed mesh; `b` holds the density given for the name and the mesh. -/
def Solid (dens : Dict String ℝ) (h : Heap) (e : String × ℕ) (b : ℝ × TriMesh ℝ) : Prop :=
  ∃ M c, (h e.2).mesh = (.ok M, c) ∧ M.tris = b.2 ∧ Closed b.2 ∧ dens.get? e.1 = some b.1

end Spec

/-- C111 for a vehicle, in part: if the meshes of all named components are closed, the analysis reports the sum of the enclosed (signed)
volumes, the sum of density times volume, and, if no volume and the mass does not vanish, the weighted mean of the centres of the solids.
Missing: the meshes of some components are not closed or inside out (`C111_reflected_violated`, `C111_hifire8_violated`,
`C111_wedge_violated`). -/
theorem C111_vehicle_partial (lib : Lib) (hl : NumpyStl lib) (depth : ℕ) (st st' : VState) (dens : Dict String ℝ) (a : Analysis)
    (hg : st.veh.generated = true) (h : analyse lib (depth + 1) st dens = (.ok a, st')) (bs : List (ℝ × TriMesh ℝ))
    (hb : List.Forall₂ (Solid dens st.heap) st.veh.named bs) :
    a.volume = (bs.map fun b => signedVolume b.2).sum ∧ a.mass = (bs.map fun b => b.1 * signedVolume b.2).sum ∧
      (a.mass ≠ 0 → (∀ b ∈ bs, signedVolume b.2 ≠ 0) →
        a.cog = some (weightedMean (bs.map fun b => (b.1 * signedVolume b.2, centroid b.2)))) := by
  have ht := C76_sums lib depth st st' dens a hg h
  have key : ∀ (l : List (String × ℕ)) (ps : List (String × CompProps)) (bs : List (ℝ × TriMesh ℝ)),
      List.Forall₂ (AssessedAs lib dens st.heap) l ps → List.Forall₂ (Solid dens st.heap) l bs →
      List.Forall₂ (fun (q : String × CompProps) (b : ℝ × TriMesh ℝ) => q.2.props.volume = signedVolume b.2 ∧
        q.2.props.mass = b.1 * signedVolume b.2 ∧ (signedVolume b.2 ≠ 0 → q.2.props.cog = centroid b.2)) ps bs := by
    intro l ps bs h1 h2
    induction h1 generalizing bs with
    | nil => cases h2; exact .nil
    | cons h1 _ ih =>
      cases h2 with
      | cons h2 h3 =>
        refine .cons ?_ (ih _ h3)
        obtain ⟨-, M, c, ρ, k1, k2, k3, -⟩ := h1
        obtain ⟨M', c', j1, j2, j3, j4⟩ := h2
        rw [k1] at j1
        obtain ⟨rfl⟩ := Except.ok.inj (Prod.mk.inj j1).1
        rw [k2] at j4
        obtain ⟨rfl⟩ := Option.some.inj j4
        obtain ⟨m1, m2, m3⟩ := C111_component lib hl M (by rw [j2]; exact j3) _ _ k3
        rw [j2] at m1 m2 m3
        exact ⟨m1, m2, m3⟩
  have hk := key _ _ _ ht.components hb
  have hv : a.components.map (fun q => q.2.props.volume) = bs.map fun b => signedVolume b.2 := by
    rw [← List.forall₂_eq_eq_eq, List.forall₂_map_left_iff, List.forall₂_map_right_iff]
    exact hk.imp fun _ _ k => k.1
  have hm : a.components.map (fun q => q.2.props.mass) = bs.map fun b => b.1 * signedVolume b.2 := by
    rw [← List.forall₂_eq_eq_eq, List.forall₂_map_left_iff, List.forall₂_map_right_iff]
    exact hk.imp fun _ _ k => k.2.1
  refine ⟨by rw [ht.volume, hv], by rw [ht.mass, hm], fun hm0 hne => ?_⟩
  rw [C77_mean lib depth st st' dens a hg h hm0]
  congr 2
  unfold masses
  rw [← List.forall₂_eq_eq_eq, List.forall₂_map_left_iff, List.forall₂_map_right_iff]
  have : ∀ (ps : List (String × CompProps)) (bs : List (ℝ × TriMesh ℝ)),
      List.Forall₂ (fun (q : String × CompProps) (b : ℝ × TriMesh ℝ) => q.2.props.volume = signedVolume b.2 ∧
        q.2.props.mass = b.1 * signedVolume b.2 ∧ (signedVolume b.2 ≠ 0 → q.2.props.cog = centroid b.2)) ps bs →
      (∀ b ∈ bs, signedVolume b.2 ≠ 0) → List.Forall₂ (fun (q : String × CompProps) (b : ℝ × TriMesh ℝ) =>
        (q.2.props.mass, q.2.props.cog) = (b.1 * signedVolume b.2, centroid b.2)) ps bs := by
    intro ps bs hk hne
    induction hk with
    | nil => exact .nil
    | cons k _ ih => exact .cons (by rw [k.2.1, k.2.2 (hne _ (by simp))]) (ih fun b hb => hne b (by simp [hb]))
  exact this _ _ hk hne

/-- numpy-stl as a library: the assumption `NumpyStl` can be met. -/
noncomputable def Spec.numpyStl : Lib where
  massProps M ρ := .ok ⟨stlVolume M.tris, ρ * stlVolume M.tris, stlMoment M.tris * (1 / stlVolume M.tris), fun _ _ => 0⟩
  area _ := 0

theorem numpyStl_ok : NumpyStl numpyStl where
  volume := by intro M ρ q h; cases h; rfl
  mass := by intro M ρ q h; cases h; rfl
  cog := by intro M ρ q h _; cases h; rfl

/-- C111 is violated by every component added with its reflection: whatever it looks like and whatever its density, its reported volume and
mass are zero. -/
theorem C111_reflected_violated (lib : Lib) (hl : NumpyStl lib) (M : StlMesh) (F : TriMesh ℝ) (i : Fin 3)
    (hM : M.tris = F ++ mapVerts (mirrorV i) F) (ρ : ℝ) (q : MassProps) (h : lib.massProps M ρ = .ok q) : q.volume = 0 ∧ q.mass = 0 := by
  have : q.volume = 0 := by rw [hl.volume M ρ q h, hM, stlVolume_append, stlVolume_mirrorV]; ring
  exact ⟨this, by rw [hl.mass M ρ q h, this, mul_zero]⟩

/-- A vehicle whose named components have meshes can be analysed with numpy-stl, once a density is given for every name. -/
theorem analyse_total (st : VState) (dens : Dict String ℝ) (depth : ℕ) (hg : st.veh.generated = true) (hn : st.veh.named ≠ [])
    (hm : ∀ e ∈ st.veh.named, ∃ M c, (st.heap e.2).mesh = (.ok M, c)) (hd : ∀ e ∈ st.veh.named, ∃ ρ, dens.get? e.1 = some ρ) :
    ∃ a st', analyse numpyStl (depth + 1) st dens = (.ok a, st') := by
  have : ∀ l : List (String × ℕ), (∀ e ∈ l, ∃ M c, (st.heap e.2).mesh = (.ok M, c)) → (∀ e ∈ l, ∃ ρ, dens.get? e.1 = some ρ) →
      ∃ ps, List.Forall₂ (AssessedAs numpyStl dens st.heap) l ps := by
    intro l h1 h2
    induction l with
    | nil => exact ⟨[], .nil⟩
    | cons e l ih =>
      obtain ⟨ps, hps⟩ := ih (fun e he => h1 e (by simp [he])) (fun e he => h2 e (by simp [he]))
      obtain ⟨M, c, hM⟩ := h1 e (by simp)
      obtain ⟨ρ, hρ⟩ := h2 e (by simp)
      exact ⟨(e.1, ⟨_, _⟩) :: ps, .cons ⟨rfl, M, c, ρ, hM, hρ, rfl, rfl⟩ hps⟩
  obtain ⟨ps, hps⟩ := this _ hm hd
  have hne : ps ≠ [] := by
    rintro rfl
    exact hn (List.forall₂_nil_right_iff.1 hps)
  have hs : ∃ a, summarise ps = .ok a := by
    unfold summarise compositeCog
    rcases ps with _ | ⟨e, ps⟩
    · exact absurd rfl hne
    · simp only
      split_ifs
      · exact ⟨_, rfl⟩
      · exact ⟨_, rfl⟩
  obtain ⟨a, ha⟩ := hs
  obtain ⟨st', k⟩ := (analyseGenerated_ok numpyStl st dens a).2 ⟨ps, hps, ha⟩
  exact ⟨a, st', by rw [analyse_generated _ _ _ _ hg]; exact k⟩

/-- C111 is violated by the wedge: whatever its dimensions, the reported mass is minus the density times half of chord times thickness times
span. -/
theorem C111_wedge_violated (h : Heap) (id : ℕ) (kwargs : Dict String ℝ) (hk : kwargs.keys.Nodup) (w c t : ℝ)
    (hw : given kwargs "wingspan" 1 w) (hc : given kwargs "chord" 1 c) (ht : given kwargs "thickness" 0.1 t)
    (hw0 : 0 < w) (hc0 : 0 < c) (ht0 : 0 < t) (lib : Lib) (hl : NumpyStl lib) (depth : ℕ) (ρ : ℝ) (hρ : 0 < ρ) :
    ∃ st st', Wedge.instanceOf h id kwargs = .ok st ∧ Veh.generate lib depth st = (.ok (), st') ∧
      ∀ a st'', analyse lib (depth + 1) st' [("swept_1", ρ)] = (.ok a, st'') →
        a.volume = -(c * t * w / 2) ∧ a.mass = -(ρ * (c * t * w / 2)) ∧ a.mass < 0 := by
  obtain ⟨st, h1, h2, h3, h4, h5, h6⟩ := C90_partial h id kwargs hk w c t hw hc ht
  obtain ⟨st', M, c', g1, g2, g3, g4⟩ := h6 10 (by norm_num) lib depth
  have hst : (⟨st.heap.upd id { st.heap id with stl_resolution := .int 10 }, st.veh⟩ : VState) = st := by
    have e : ({ st.heap id with stl_resolution := .int 10 } : Comp) = st.heap id := by rw [← h5]
    rw [e, upd_eq_self]
  rw [hst] at g1
  refine ⟨st, st', h1, g1, fun a st'' ha => ?_⟩
  obtain ⟨-, -, -, -, -, -, x, y, hv⟩ := generate_steps lib depth st st' g1
  obtain ⟨k1, k2, -⟩ := C111_vehicle_partial lib hl depth st' st'' _ a (by rw [hv]) ha [(ρ, M.tris)] (by
    rw [hv, h3]
    exact .cons ⟨M, c', g2, rfl, g3, by simp [Dict.get?]⟩ .nil)
  simp only [List.map_cons, List.map_nil, List.sum_cons, List.sum_nil, add_zero, g4] at k1 k2
  refine ⟨k1, by rw [k2]; ring, ?_⟩
  rw [k2]
  have : 0 < ρ * (c * t * w / 2) := by positivity
  linarith

/-- The hypotheses of `C111_wedge_violated` are met by the default wedge and numpy-stl, and the analysis succeeds. -/
example (h : Heap) (id depth : ℕ) : ∃ st st' a st'', Wedge.instanceOf h id [] = .ok st ∧ Veh.generate numpyStl depth st = (.ok (), st') ∧
    analyse numpyStl (depth + 1) st' [("swept_1", 1000)] = (.ok a, st'') ∧ a.mass = -50 := by
  obtain ⟨st, h1, h2, h3, h4, h5, h6⟩ := C90_partial h id [] (by simp [Dict.keys]) 1 1 0.1 (.inr ⟨by simp, rfl⟩) (.inr ⟨by simp, rfl⟩)
    (.inr ⟨by simp, rfl⟩)
  obtain ⟨st0, st', g1, g2, g3⟩ := C111_wedge_violated h id [] (by simp [Dict.keys]) 1 1 0.1 (.inr ⟨by simp, rfl⟩) (.inr ⟨by simp, rfl⟩)
    (.inr ⟨by simp, rfl⟩) (by norm_num) (by norm_num) (by norm_num) numpyStl numpyStl_ok depth 1000 (by norm_num)
  rw [h1] at g1
  obtain rfl := Except.ok.inj g1
  obtain ⟨st2, M, c', k1, k2, -⟩ := h6 10 (by norm_num) numpyStl depth
  have hst : (⟨st.heap.upd id { st.heap id with stl_resolution := .int 10 }, st.veh⟩ : VState) = st := by
    have e : ({ st.heap id with stl_resolution := .int 10 } : Comp) = st.heap id := by rw [← h5]
    rw [e, upd_eq_self]
  rw [hst, g2] at k1
  obtain rfl := (Prod.mk.inj k1).2
  obtain ⟨-, -, -, -, -, -, x, y, hv⟩ := generate_steps _ depth st st' g2
  obtain ⟨a, st'', ha⟩ := analyse_total st' [("swept_1", 1000)] depth (by rw [hv]) (by rw [hv, h3]; simp)
    (by rw [hv, h3]; simpa using ⟨M, c', k2⟩) (by rw [hv, h3]; simp [Dict.get?])
  exact ⟨st, st', a, st'', h1, g2, ha, by rw [(g3 a st'' ha).2.1]; norm_num⟩

/-- C111 is violated by the HIFiRE 8: whatever its (sensible) dimensions, mesh resolutions (of the fuselage: at least 2) and densities, the
reported volume of the fuselage is negative, and the reported volumes and masses of wing and nose are zero. -/
theorem C111_hifire8_violated (ptan : ℝ → ℝ) (hT : FloatTan ptan) (h : Heap) (ids : ℕ → ℕ) (hi : Function.Injective ids) (kwargs : Dict String ℝ)
    (p : HIFiRE8.Params) (ha : HIFiRE8Args kwargs p) (hp : HIFiRE8Ok p) (lib : Lib) (hl : NumpyStl lib) (depth : ℕ) (dens : Dict String ℝ) :
    ∃ st, HIFiRE8.instanceOf bisect01 ptan h ids kwargs = .ok st ∧ ∀ st0, Rescaled st st0 →
      (∃ n : ℕ, 2 ≤ n ∧ (st0.heap (ids 0)).stl_resolution = .int n) →
      ∃ st', generate lib depth st0 = (.ok (), st') ∧
        (lib = numpyStl → (∀ s ∈ ["fuselage", "wing", "nose", "fin1", "fin2", "fin3"], ∃ ρ, dens.get? s = some ρ) →
          ∃ a st'', analyse lib (depth + 1) st' dens = (.ok a, st'')) ∧
        ∀ a st'', analyse lib (depth + 1) st' dens = (.ok a, st'') →
          (∃ q, ("fuselage", q) ∈ a.components ∧ q.props.volume < 0) ∧
          (∃ q, ("wing", q) ∈ a.components ∧ q.props.volume = 0 ∧ q.props.mass = 0) ∧
          (∃ q, ("nose", q) ∈ a.components ∧ q.props.volume = 0 ∧ q.props.mass = 0) := by
  obtain ⟨st, b1, b2, b3, -, b4⟩ := hifire8_meshes ptan hT h ids hi kwargs p ha hp
  refine ⟨st, b1, fun st0 hr hn => ?_⟩
  obtain ⟨n, hn2, hn⟩ := hn
  obtain ⟨st', g1, g2, g3⟩ := b4 st0 lib depth hr
  have hnamed : st'.veh.named = [("fuselage", ids 0), ("wing", ids 1), ("nose", ids 2), ("fin1", ids 3), ("fin2", ids 4), ("fin3", ids 5)] := by
    rw [g2]; exact b3
  refine ⟨st', g1, ?_, fun a st'' hA => ?_⟩
  · rintro rfl hd
    refine analyse_total st' dens depth (by rw [g2]) (by rw [hnamed]; simp) ?_ ?_
    · rw [hnamed]
      obtain ⟨M0, c0, m0, -⟩ := g3.fuselage
      obtain ⟨M1, c1, F1, m1, -⟩ := g3.wing
      obtain ⟨M2, c2, F2, m2, -⟩ := g3.nose
      obtain ⟨M3, c3, m3, -⟩ := g3.fin1
      obtain ⟨M4, c4, m4, -⟩ := g3.fin2
      obtain ⟨M5, c5, m5, -⟩ := g3.fin3
      intro e he
      simp only [List.mem_cons, List.not_mem_nil, or_false] at he
      rcases he with rfl | rfl | rfl | rfl | rfl | rfl
      · exact ⟨_, _, m0⟩
      · exact ⟨_, _, m1⟩
      · exact ⟨_, _, m2⟩
      · exact ⟨_, _, m3⟩
      · exact ⟨_, _, m4⟩
      · exact ⟨_, _, m5⟩
    · rw [hnamed]
      intro e he
      refine hd e.1 ?_
      simp only [List.mem_cons, List.not_mem_nil, or_false] at he
      rcases he with rfl | rfl | rfl | rfl | rfl | rfl <;> simp
  · have hc := (C76_sums lib depth st' st'' dens a (by rw [g2]) hA).components
    rw [hnamed] at hc
    rcases hc' : a.components with _ | ⟨x0, _ | ⟨x1, _ | ⟨x2, r⟩⟩⟩
    · rw [hc'] at hc; cases hc
    · rw [hc'] at hc
      cases hc with
      | cons _ hc => cases hc
    · rw [hc'] at hc
      cases hc with
      | cons _ hc =>
        cases hc with
        | cons _ hc => cases hc
    · rw [hc'] at hc
      cases hc with
      | cons h0 hc =>
        cases hc with
        | cons h1 hc =>
          cases hc with
          | cons h2 hc =>
            obtain ⟨z0, M0, c0, ρ0, y0, -, q0, -⟩ := h0
            obtain ⟨z1, M1, c1, ρ1, y1, -, q1, -⟩ := h1
            obtain ⟨z2, M2, c2, ρ2, y2, -, q2, -⟩ := h2
            refine ⟨⟨x0.2, ?_, ?_⟩, ⟨x1.2, ?_, ?_⟩, ⟨x2.2, ?_, ?_⟩⟩
            · rw [show "fuselage" = x0.1 from z0.symm]; simp
            · obtain ⟨M, c, m1, m2, m3⟩ := g3.fuselage
              rw [y0] at m1
              obtain rfl := Except.ok.inj (Prod.mk.inj m1).1
              rw [(C111_component lib hl M0 m2 _ _ q0).1]
              exact m3 n hn hn2
            · rw [show "wing" = x1.1 from z1.symm]; simp
            · obtain ⟨M, c, F, m1, -, m2⟩ := g3.wing
              rw [y1] at m1
              obtain rfl := Except.ok.inj (Prod.mk.inj m1).1
              exact C111_reflected_violated lib hl M1 F 1 m2 _ _ q1
            · rw [show "nose" = x2.1 from z2.symm]; simp
            · obtain ⟨M, c, F, m1, m2, -⟩ := g3.nose
              rw [y2] at m1
              obtain rfl := Except.ok.inj (Prod.mk.inj m1).1
              exact C111_reflected_violated lib hl M2 F 1 m2 _ _ q2

/-- The default HIFiRE 8 with numpy-stl meets the hypotheses of `C111_hifire8_violated`. -/
example (h : Heap) (depth : ℕ) : ∃ st st' a st'', HIFiRE8.instanceOf bisect01 ieeeTan h id [] = .ok st ∧
    generate numpyStl depth st = (.ok (), st') ∧
    analyse numpyStl (depth + 1) st' [("fuselage", 1), ("wing", 1), ("nose", 1), ("fin1", 1), ("fin2", 1), ("fin3", 1)] = (.ok a, st'') ∧
    ∃ q, ("fuselage", q) ∈ a.components ∧ q.props.volume < 0 := by
  obtain ⟨st0, k1, -, -, k2, -⟩ := hifire8_meshes ieeeTan ieeeTan_float h id Function.injective_id [] _ hifire8Default_ok.1 hifire8Default_ok.2
  obtain ⟨st, h1, h2⟩ := C111_hifire8_violated ieeeTan ieeeTan_float h id Function.injective_id [] _ hifire8Default_ok.1 hifire8Default_ok.2
    numpyStl numpyStl_ok depth [("fuselage", 1), ("wing", 1), ("nose", 1), ("fin1", 1), ("fin2", 1), ("fin3", 1)]
  rw [k1] at h1
  obtain rfl := Except.ok.inj h1
  obtain ⟨st', g1, g2, g3⟩ := h2 st0 ⟨rfl, fun k => .inl rfl⟩ ⟨8, by norm_num, k2⟩
  obtain ⟨a, st'', g4⟩ := g2 rfl (by simp [Dict.get?])
  exact ⟨st0, st', a, st'', k1, g1, g4, (g3 a st'' g4).1⟩

/-- A mesh of a component added with its reflection, with a half of nonzero volume: `C111_reflected_violated` is not about empty meshes. -/
example : ∃ F : TriMesh ℝ, signedVolume F ≠ 0 ∧ stlVolume (F ++ mapVerts (mirrorV 1) F) = 0 :=
  ⟨[⟨⟨1, 0, 0⟩, ⟨0, 1, 0⟩, ⟨0, 0, 1⟩⟩], by norm_num [signedVolume, det3], by rw [stlVolume_append, stlVolume_mirrorV]; ring⟩

end HV
