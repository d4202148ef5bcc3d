import Verif.Model.Studies
import Verif.Props.AffineSweep
import Verif.Props.StudyOk
import Verif.Props.Wedge

/-!
# C124: the documented sensitivity study of the wedge
-/

namespace HV
open Spec Sens

namespace Spec

/-- Multiplying the coordinates by numbers. -/
noncomputable def stretch (a b c : ℝ) (p : V) : V := ⟨a * p.x, b * p.y, c * p.z⟩

/-- How a vertex of the wedge at `x` moves with a parameter of value `v`: the chord stretches the wedge along `x`, the thickness along
`y` and the wingspan along `z`. -/
noncomputable def wedgeRate (name : String) (v : ℝ) (x : V) : Vec (Option ℝ) :=
  if name = "chord" then ⟨some (x.x / v), some 0, some 0⟩
  else if name = "thickness" then ⟨some 0, some (x.y / v), some 0⟩
  else if name = "wingspan" then ⟨some 0, some 0, some (x.z / v)⟩
  else ⟨some 0, some 0, some 0⟩

end Spec

theorem stretch_affine (a b c : ℝ) : IsAffine (stretch a b c) (Matrix.diagonal ![a, b, c]) := by
  refine ⟨0, fun p => ?_⟩
  rw [add_zero]
  ext i
  rw [Matrix.mulVec_diagonal]
  fin_cases i <;> simp [toF, stretch]

theorem wedge_image (w c t a b e : ℝ) :
    SectionsImage (stretch a b e) (Wedge.sections w c t) (Wedge.sections (e * w) (a * c) (b * t)) := by
  unfold SectionsImage Wedge.sections
  simp only [List.map_cons, List.map_nil]
  refine .cons ?_ (.cons ?_ .nil)
  all_goals
    unfold Wedge.section_
    refine .cons ?_ (.cons ?_ (.cons ?_ (.cons ?_ .nil))) <;>
    · intro s _ _ q hq
      simp only [Line, lineAt, Except.ok.injEq] at hq ⊢
      subst hq
      ext <;> simp [stretch] <;> ring

/-- The heap with the component of a wedge. -/
noncomputable def wedgeHeap (h : Heap) (id : ℕ) (w c t : ℝ) : Heap :=
  (h.upd id (Swept.comp (Wedge.sections w c t) 4 true (.int 10) none)).upd id
    (Swept.comp (Wedge.sections w c t) 4 true (.int 10) none)

theorem wedge_init (w c t : ℝ) : Swept.init (Wedge.sections w c t) true (.int 10) none =
    .ok (Swept.comp (Wedge.sections w c t) 4 true (.int 10) none) := by
  obtain ⟨c', hc', -⟩ := extrusion_mesh (quad_extrusion (wedgeX c) (wedgeY t) [-(w / 2), w / 2]) (by simp)
    (fun ne hne => ⟨quad_closes _ ne hne, quad_closes _ ne hne⟩) (-(w / 2)) (w / 2) rfl rfl 10 (by norm_num) none
  rw [← wedge_sections] at hc'
  have hc := hc'
  unfold Swept.init at hc'
  have : SweptPatch.getIdx (Wedge.sections w c t) 0 = .ok (Wedge.section_ c t (0.5 * (-1) * w)) := rfl
  rw [this, ok_bind, bind_ok] at hc'
  obtain ⟨u, -, hu⟩ := hc'
  cases hu
  exact hc

theorem wedge_instance (h : Heap) (id : ℕ) (kwargs : Dict String ℝ) (hk : kwargs.keys.Nodup) (w c t : ℝ)
    (hw : given kwargs "wingspan" 1 w) (hc : given kwargs "chord" 1 c) (ht : given kwargs "thickness" 0.1 t) :
    Wedge.instanceOf h id kwargs = .ok ⟨wedgeHeap h id w c t, wedgeVeh id false⟩ := by
  unfold Wedge.instanceOf Wedge.createInstance
  simp only [given_get hk hw rfl, given_get hk hc rfl, given_get hk ht rfl, ok_bind, wedge_init]
  unfold Veh.addComponent
  simp only [upd_self]
  have hty : (Swept.comp (Wedge.sections w c t) 4 true (.int 10) none).componenttype ∈ Veh.allowable := by
    simp [Swept.comp, Veh.allowable]
  rw [if_pos hty]
  have h1 : ("swept" ++ "_" ++ toString 1) = "swept_1" := by decide
  simp only [Veh.record, Veh.nextCount, Veh.nameFor, Swept.comp, Veh.configure, Dict.get?, Option.getD_none, zero_add, h1,
    Veh.truthy]
  rfl

/-- Numbers as keyword arguments. -/
def vals (kwargs : Dict String ℝ) : Dict String Val := kwargs.map fun e => (e.1, .num e.2)

theorem wedge_ctor (h : Heap) (id : ℕ) (kwargs : Dict String ℝ) : Wedge.ctor h id (vals kwargs) = Wedge.instanceOf h id kwargs := by
  unfold Wedge.ctor vals
  rw [mapM_ok (kwargs.map fun e => (e.1, Val.num e.2)) _ (fun e => (e.1, match e.2 with | .num x => x | .arr _ => 0)) (by
    intro e he
    obtain ⟨x, -, rfl⟩ := List.mem_map.1 he
    rfl), ok_bind, List.map_map]
  congr 1
  conv_rhs => rw [← List.map_id kwargs]
  rfl

theorem wedge_makes (h : Heap) (id : ℕ) (lib : Lib) (depth : ℕ) (kwargs : Dict String ℝ) (hk : kwargs.keys.Nodup) (w c t : ℝ)
    (hw : given kwargs "wingspan" 1 w) (hc : given kwargs "chord" 1 c) (ht : given kwargs "thickness" 0.1 t) (g : Heap) (M : StlMesh)
    (d : Comp) (hg : generatePatches (wedgeHeap h id w c t) id = (.ok (), g)) (hM : (g id).mesh = (.ok M, d)) :
    Makes (Wedge.ctor h id) lib depth (vals kwargs) { wedgeVeh id true with verbosity := 0 } [("swept_1", M)] := by
  have hid : wedgeHeap h id w c t id = Swept.comp (Wedge.sections w c t) 4 true (.int 10) none := upd_self _ _ _
  have hfr : ∃ P R T, g id = { wedgeHeap h id w c t id with patches := P, patch_res_r := R, patch_res_s := T } := by
    obtain ⟨P, R, T, e⟩ := generatePatches_opts (wedgeHeap h id w c t) id (by
      unfold Comp.children
      rw [hid]
      simp [Swept.comp])
    rw [hg] at e
    exact ⟨P, R, T, e⟩
  obtain ⟨P, R, T, e⟩ := hfr
  rw [hid] at e
  have hpipe : pipeline 0 (g id) = (.ok (), g id) := by
    apply pipeline_plain <;> rw [e] <;> rfl
  have hall : Veh.genAll 0 (wedgeHeap h id w c t) [id] = (.ok (), g.upd id (g id)) := by
    unfold Veh.genAll
    rw [genOne_eq, hg]
    simp only [hpipe]
    rfl
  refine ⟨⟨wedgeHeap h id w c t, wedgeVeh id false⟩, ⟨g.upd id (g id), { wedgeVeh id true with verbosity := 0 }⟩, ?_, ?_, rfl, ?_, ?_⟩
  · rw [wedge_ctor, wedge_instance h id kwargs hk w c t hw hc ht]
  · unfold Veh.generate Veh.generateWith
    have hang : (wedgeVeh id false).angleOffset = 0 := rfl
    have hcs : (wedgeVeh id false).components = [id] := rfl
    simp only [hang, hcs, hall]
    unfold Veh.genTransform
    have htr : (wedgeVeh id false).transformations = [] := rfl
    simp only [htr, if_true]
    rfl
  · refine .cons ⟨rfl, d, ?_⟩ .nil
    show ((g.upd id (g id)) id).mesh = _
    rw [upd_self]
    exact hM
  · intro k hk
    have : k = id := by simpa [wedgeVeh] using hk
    subst this
    refine ⟨M, d, ?_⟩
    show ((g.upd k (g k)) k).mesh = _
    rw [upd_self]
    exact hM

/-- A wedge and a stretched one. -/
theorem wedge_pair (h : Heap) (id : ℕ) (w c t a b e : ℝ) : ∃ g M d g' M' d',
    generatePatches (wedgeHeap h id w c t) id = (.ok (), g) ∧ (g id).mesh = (.ok M, d) ∧
    generatePatches (wedgeHeap h id (e * w) (a * c) (b * t)) id = (.ok (), g') ∧ (g' id).mesh = (.ok M', d') ∧
    M'.tris = mapVerts (stretch a b e) M.tris := by
  have hx := quad_extrusion (wedgeX c) (wedgeY t) [-(w / 2), w / 2]
  rw [← wedge_sections] at hx
  obtain ⟨c1, c2, i1, i2, hh⟩ := C123_swept (stretch_affine a b e) (wedge_image w c t a b e) (by simp [Wedge.sections]) hx.len hx.total
    (hx.closed fun ne hne => ⟨quad_closes _ ne hne, quad_closes _ ne hne⟩) (.int 10) 10 10 (.inl ⟨rfl, rfl⟩) (by norm_num) (by norm_num) none
  rw [wedge_init] at i1 i2
  cases i1
  cases i2
  exact hh _ _ id id (upd_self _ _ _) (upd_self _ _ _)

theorem vertexList_map (M M' : StlMesh) (f : V → V) (h : M'.tris = mapVerts f M.tris) : vertexList M' = (vertexList M).map f := by
  unfold vertexList
  rw [h]
  simp [mapVerts, List.flatMap_map, List.map_flatMap]

theorem vals_given (s : Store) (l o : List (String × ℝ)) : kwGiven s (numbers l) (numbers o) = vals (l ++ o) := by
  simp [kwGiven, numbers, vals, ParamVal.val, Function.comp_def]

/-- The parameters with one value replaced. -/
noncomputable def replaced (l : List (String × ℝ)) (name : String) (q : ℝ) : List (String × ℝ) := l.map fun e => (e.1, if e.1 = name then q else e.2)

theorem vals_with (s : Store) (l o : List (String × ℝ)) (name : String) (q : ℝ) :
    kwWith s (numbers l) (numbers o) name q = vals (replaced l name q ++ o) := by
  simp only [kwWith, numbers, vals, replaced, ParamVal.val, List.map_map, Function.comp_def, List.map_append]
  congr 1
  apply List.map_congr_left
  intro e _
  split_ifs <;> rfl

theorem replaced_keys (l : List (String × ℝ)) (name : String) (q : ℝ) : (replaced l name q).map Prod.fst = l.map Prod.fst := by
  simp [replaced, Function.comp_def]

theorem given_replaced {l o : List (String × ℝ)} (hn : (Dict.keys (l ++ o)).Nodup) {name : String} {v q : ℝ} (he : (name, v) ∈ l) {k : String}
    {dflt x : ℝ} (h : given (l ++ o) k dflt x) :
    given (replaced l name q ++ o) k dflt (if k = name then q else x) ∧ (k = name → x = v) := by
  by_cases hk : k = name
  · subst hk
    refine ⟨.inl ?_, fun _ => ?_⟩
    · rw [if_pos rfl]
      exact List.mem_append_left _ (List.mem_map.2 ⟨(k, v), he, by simp⟩)
    · have h1 := Dict.get?_of_mem hn (List.mem_append_left o he)
      rcases h with h | ⟨h, -⟩
      · rw [Dict.get?_of_mem hn h] at h1
        exact Option.some.inj h1
      · exact absurd (List.mem_append_left o he) (h v)
  · rw [if_neg hk]
    refine ⟨?_, fun h => absurd h hk⟩
    have hiff : ∀ u, (k, u) ∈ replaced l name q ++ o ↔ (k, u) ∈ l ++ o := by
      intro u
      rw [List.mem_append, List.mem_append]
      refine or_congr ?_ Iff.rfl
      unfold replaced
      rw [List.mem_map]
      constructor
      · rintro ⟨e, h1, h2⟩
        simp only [Prod.mk.injEq] at h2
        obtain ⟨h2, h3⟩ := h2
        rw [if_neg (by rw [h2]; exact hk)] at h3
        rw [← h2, ← h3]
        exact h1
      · intro h1
        exact ⟨(k, u), h1, by simp [hk]⟩
    rcases h with h | ⟨h, rfl⟩
    · exact .inl ((hiff _).2 h)
    · exact .inr ⟨fun u hu => h u ((hiff u).1 hu), rfl⟩

/-- How the perturbation of a parameter stretches the wedge. -/
noncomputable def wedgeStretch (name : String) (f : ℝ) : V → V :=
  stretch (if "chord" = name then f else 1) (if "thickness" = name then f else 1) (if "wingspan" = name then f else 1)

theorem wedge_rate (name : String) (v p : ℝ) (hv : v ≠ 0) (hp : p ≠ 0) (x : V) :
    (⟨some (((wedgeStretch name (1 + p / 100) x).x - x.x) / (v * p / 100)), some (((wedgeStretch name (1 + p / 100) x).y - x.y) / (v * p / 100)),
      some (((wedgeStretch name (1 + p / 100) x).z - x.z) / (v * p / 100))⟩ : Vec (Option ℝ)) = wedgeRate name v x := by
  unfold wedgeRate wedgeStretch stretch
  simp only [@eq_comm _ "chord" name, @eq_comm _ "thickness" name, @eq_comm _ "wingspan" name]
  have key : ∀ y : ℝ, ((1 + p / 100) * y - y) / (v * p / 100) = y / v := by
    intro y
    field_simp
    ring
  by_cases h1 : name = "chord"
  · subst h1
    simp [key]
  · by_cases h2 : name = "thickness"
    · subst h2
      simp [key]
    · by_cases h3 : name = "wingspan"
      · subst h3
        simp [key]
      · simp [h1, h2, h3]

/-- The wedge and the wedge with one parameter perturbed. -/
theorem wedge_perturbed (h : Heap) (id : ℕ) (lib : Lib) (depth : ℕ) (l o : List (String × ℝ)) (hn : (Dict.keys (l ++ o)).Nodup) (w c t : ℝ)
    (hw : given (l ++ o) "wingspan" 1 w) (hc : given (l ++ o) "chord" 1 c) (ht : given (l ++ o) "thickness" 0.1 t) (name : String) (v : ℝ)
    (he : (name, v) ∈ l) (f : ℝ) : ∃ M M',
      Makes (Wedge.ctor h id) lib depth (vals (l ++ o)) { wedgeVeh id true with verbosity := 0 } [("swept_1", M)] ∧
      Makes (Wedge.ctor h id) lib depth (vals (replaced l name (v * f) ++ o)) { wedgeVeh id true with verbosity := 0 } [("swept_1", M')] ∧
      M'.tris = mapVerts (wedgeStretch name f) M.tris := by
  obtain ⟨g, M, d, g', M', d', g1, g2, g3, g4, g5⟩ := wedge_pair h id w c t (if "chord" = name then f else 1)
    (if "thickness" = name then f else 1) (if "wingspan" = name then f else 1)
  refine ⟨M, M', wedge_makes h id lib depth _ hn w c t hw hc ht g M d g1 g2, ?_, g5⟩
  obtain ⟨w1, w2⟩ := given_replaced (q := v * f) hn he hw
  obtain ⟨c1, c2⟩ := given_replaced (q := v * f) hn he hc
  obtain ⟨t1, t2⟩ := given_replaced (q := v * f) hn he ht
  have hmul : ∀ (k : String) (x : ℝ), (k = name → x = v) → (if k = name then f else 1) * x = if k = name then v * f else x := by
    intro k x hx
    split_ifs with hk
    · rw [hx hk]; ring
    · ring
  rw [hmul _ _ w2, hmul _ _ c2, hmul _ _ t2] at g3
  refine wedge_makes h id lib depth _ ?_ _ _ _ w1 c1 t1 g' M' d' g3 g4
  unfold Dict.keys at hn ⊢
  rw [List.map_append, replaced_keys, ← List.map_append]
  exact hn

theorem makes_generates {ctor : Ctor} {lib : Lib} {depth : ℕ} {kw : Dict String Val} {v : Veh} {c : String} {M : StlMesh}
    (h : Makes ctor lib depth kw v [(c, M)]) : Generates ctor lib depth kw c M := by
  obtain ⟨st, st', h1, h2, rfl, h4, -⟩ := h
  generalize hnm : st'.veh.named = nm at h4
  cases h4 with
  | cons h5 h6 =>
    cases h6
    rename_i e
    obtain ⟨h5, d, h7⟩ := h5
    refine ⟨st, st', e.2, d, h1, h2, ?_, h7⟩
    rw [hnm]
    simp only at h5
    simp [Dict.get?, h5]

/-- The meshes of a study of the wedge. -/
theorem wedge_meshes (h : Heap) (id : ℕ) (lib : Lib) (depth : ℕ) (s : Store) (l o : List (String × ℝ)) (hl : l ≠ [])
    (hn : (Dict.keys (l ++ o)).Nodup) (f : ℝ) : ∃ (M : StlMesh) (Mp : String → StlMesh),
      Makes (Wedge.ctor h id) lib depth (kwGiven s (numbers l) (numbers o)) { wedgeVeh id true with verbosity := 0 } [("swept_1", M)] ∧
      ∀ e ∈ l, Makes (Wedge.ctor h id) lib depth (kwWith s (numbers l) (numbers o) e.1 (e.2 * f))
        { wedgeVeh id true with verbosity := 0 } [("swept_1", Mp e.1)] ∧ (Mp e.1).tris = mapVerts (wedgeStretch e.1 f) M.tris := by
  have hval : ∀ k dflt, ∃ x, given (l ++ o) k dflt x := by
    intro k dflt
    by_cases hk : ∃ u, (k, u) ∈ l ++ o
    · obtain ⟨u, hu⟩ := hk
      exact ⟨u, .inl hu⟩
    · exact ⟨dflt, .inr ⟨fun u hu => hk ⟨u, hu⟩, rfl⟩⟩
  obtain ⟨w, hw⟩ := hval "wingspan" 1
  obtain ⟨c, hc⟩ := hval "chord" 1
  obtain ⟨t, ht⟩ := hval "thickness" 0.1
  have hln : (l.map Prod.fst).Nodup := by
    unfold Dict.keys at hn
    rw [List.map_append] at hn
    exact hn.of_append_left
  obtain ⟨e0, he0⟩ := List.exists_mem_of_ne_nil l hl
  obtain ⟨M, -, m1, -, -⟩ := wedge_perturbed h id lib depth l o hn w c t hw hc ht e0.1 e0.2 he0 f
  have hch : ∀ n : String, ∃ M' : StlMesh, ∀ e ∈ l, e.1 = n →
      Makes (Wedge.ctor h id) lib depth (kwWith s (numbers l) (numbers o) e.1 (e.2 * f)) { wedgeVeh id true with verbosity := 0 }
        [("swept_1", M')] ∧ M'.tris = mapVerts (wedgeStretch e.1 f) M.tris := by
    intro n
    by_cases hx : ∃ e ∈ l, e.1 = n
    · obtain ⟨e, he, rfl⟩ := hx
      obtain ⟨N, M', n1, n2, n3⟩ := wedge_perturbed h id lib depth l o hn w c t hw hc ht e.1 e.2 he f
      have : N = M := generates_unique (makes_generates n1) (makes_generates m1)
      subst this
      refine ⟨M', fun e' he' hee => ?_⟩
      have : e' = e := by
        have g1 := Dict.get?_of_mem (d := l) hln he
        have g2 := Dict.get?_of_mem (d := l) hln he'
        rw [hee, g1] at g2
        exact Prod.ext hee (Option.some.inj g2).symm
      subst this
      exact ⟨by rw [vals_with]; exact n2, n3⟩
    · exact ⟨M, fun e he hee => absurd ⟨e, he, hee⟩ hx⟩
  choose Mp hMp using hch
  exact ⟨M, Mp, by rw [vals_given]; exact m1, fun e he => hMp e.1 e he rfl⟩

theorem wedge_together {M M' : StlMesh} {f : V → V} (h : M'.tris = mapVerts f M.tris) : KeepsTogether M M' := by
  have e1 := vertexList_map M M' f h
  refine ⟨by rw [e1]; simp, fun i j hij => ?_⟩
  rw [e1, List.getElem?_map, List.getElem?_map, hij]

theorem wedge_rates {M M' : StlMesh} {name : String} {v p : ℝ} (hv : v ≠ 0) (hp : p ≠ 0)
    (h : M'.tris = mapVerts (wedgeStretch name (1 + p / 100)) M.tris) {i : ℕ} {x : V} (hx : (vertexList M)[i]? = some x) :
    rate M M' i (v * p / 100) = wedgeRate name v x := by
  unfold rate
  rw [vertexList_map M M' _ h, List.getElem?_map, hx]
  exact wedge_rate name v p hv hp x

/-- The study of the wedge succeeds. -/
theorem wedge_dvdp (h : Heap) (id : ℕ) (lib : Lib) (depth : ℕ) (self : Study) (run : Run) (l o : List (String × ℝ)) (hl : l ≠ [])
    (hn : (Dict.keys (l ++ o)).Nodup) (p : ℝ) (write : Bool) (pre : Option String) :
    ∃ T self' run', dvdp self (Wedge.ctor h id) lib depth run (numbers l) (numbers o) p write pre = (.ok T, self', run') := by
  have hln : (l.map Prod.fst).Nodup := by
    unfold Dict.keys at hn
    rw [List.map_append] at hn
    exact hn.of_append_left
  have hdis : ∀ e ∈ l, e.1 ∉ (numbers o).keys := by
    intro e he ho
    unfold Dict.keys at hn
    rw [List.map_append, List.nodup_append] at hn
    have ho : e.1 ∈ o.map Prod.fst := by simpa [numbers, Dict.keys, Function.comp_def] using ho
    exact hn.2.2 e.1 (List.mem_map.2 ⟨e, he, rfl⟩) e.1 ho rfl
  obtain ⟨M, Mp, m1, m2⟩ := wedge_meshes h id lib depth run.store l o hl hn (1 + p / 100)
  refine C122_partial self (Wedge.ctor h id) lib depth run l (numbers o) hln hdis hl p write pre _ _ m1 fun e he => ?_
  obtain ⟨k1, k2⟩ := m2 e he
  refine ⟨_, _, k1, ⟨?_, fun h => absurd rfl h, ?_⟩⟩
  · intro x hx
    simp only [List.mem_singleton] at hx
    subst hx
    exact ⟨Mp e.1, by simp [Dict.get?], by rw [k2]; simp [mapVerts]⟩
  · intro k hk
    simp [wedgeVeh, Dict.keys] at hk

/-- C124: the documented study of the wedge, for all parameters (with distinct names) and overrides, every perturbation, and with or
without writing the nominal geometry: it succeeds; if no parameter and not the perturbation is zero, the table of each parameter tells
exactly how each vertex moves, and the combined table has one row for each distinct vertex with its exact sensitivities to all
parameters. -/
theorem C124_wedge (h : Heap) (id : ℕ) (lib : Lib) (depth : ℕ) (self : Study) (run : Run) (l o : List (String × ℝ)) (hl : l ≠ [])
    (hn : (Dict.keys (l ++ o)).Nodup) (p : ℝ) (write : Bool) (pre : Option String) :
    ∃ T self' run' M, dvdp self (Wedge.ctor h id) lib depth run (numbers l) (numbers o) p write pre = (.ok T, self', run') ∧
      Generates (Wedge.ctor h id) lib depth (kwGiven run.store (numbers l) (numbers o)) "swept_1" M ∧
      (p ≠ 0 → (∀ e ∈ l, e.2 ≠ 0) →
        (∀ e ∈ l, ∃ rows, tableAt T e.1 "swept_1" = some rows ∧
          (∀ r ∈ rows, r.pos ∈ vertexList M ∧ r.sens = wedgeRate e.1 e.2 r.pos) ∧ ∀ x ∈ vertexList M, ∃ r ∈ rows, r.pos = x) ∧
        ∃ d t, self'.componentSens = some d ∧ d.get? "swept_1" = some t ∧ t.params = l.map Prod.fst ∧
          OneRowEach (vertexList M) t.rows ∧
          ∀ r ∈ t.rows, ∀ x, r.pos = some x → r.sens = l.map fun e => wedgeRate e.1 e.2 x) := by
  have hln : (l.map Prod.fst).Nodup := by
    unfold Dict.keys at hn
    rw [List.map_append] at hn
    exact hn.of_append_left
  obtain ⟨M, Mp, m1, m2⟩ := wedge_meshes h id lib depth run.store l o hl hn (1 + p / 100)
  obtain ⟨T, self', run', hd⟩ := wedge_dvdp h id lib depth self run l o hl hn p write pre
  have hM := makes_generates m1
  refine ⟨T, self', run', M, hd, hM, fun hp hv => ⟨fun e he => ?_, ?_⟩⟩
  · obtain ⟨M', rows, h1, h2, h3⟩ := (study_tables hln hd).2 e he "swept_1" M hM
    obtain ⟨k1, k2⟩ := m2 e he
    obtain rfl : Mp e.1 = M' := generates_unique (makes_generates k1) h1
    have hlen := (wedge_together k2).1
    obtain ⟨s1, s2⟩ := scaled_diff e.2 p (hv e he) hp
    rw [s1] at h3
    have hsl := slope_row s2 hlen h3
    obtain ⟨⟨-, -, hr⟩, -⟩ := compare_rows hlen h3
    refine ⟨rows, h2, fun r hr => ⟨List.mem_of_getElem? (hsl r hr).2, ?_⟩, fun x hx => ?_⟩
    · rw [(hsl r hr).1]
      exact wedge_rates (hv e he) hp k2 (hsl r hr).2
    · obtain ⟨i, hi, rfl⟩ := List.mem_iff_getElem.1 hx
      obtain ⟨r, hr1, hr2⟩ := hr ((vertexList M)[i], (vertexList (Mp e.1))[i]'(by omega) - (vertexList M)[i]) (List.mem_map.2
        ⟨((vertexList M)[i], (vertexList (Mp e.1))[i]'(by omega)), List.mem_iff_getElem.2 ⟨i, by simp; omega, by simp⟩, rfl⟩)
      simp only [Prod.mk.injEq] at hr2
      exact ⟨r, hr1, hr2.1⟩
  · obtain ⟨d, t, d1, d2, d3, d4, d5⟩ := C84_partial hln hd hp hv "swept_1" M Mp hM (fun e he => makes_generates (m2 e he).1)
      (fun e he => wedge_together (m2 e he).2)
    refine ⟨d, t, d1, d2, d3, d4, fun r hr x hx => ?_⟩
    rw [d5 r hr]
    apply List.map_congr_left
    intro e he
    obtain ⟨y, y1, y2, -⟩ := d4.first r hr
    rw [hx] at y1
    cases y1
    exact wedge_rates (hv e he) hp (m2 e he).2 y2

/-- A study that meets the hypotheses: the documented parameters, given as parameters and as an override. -/
example : ([("chord", (2 : ℝ)), ("wingspan", 3)] : List (String × ℝ)) ≠ [] ∧
    (Dict.keys ([("chord", (2 : ℝ)), ("wingspan", 3)] ++ [("thickness", 0.2)])).Nodup ∧ (5 : ℝ) ≠ 0 ∧
    ∀ e ∈ [("chord", (2 : ℝ)), ("wingspan", 3)], e.2 ≠ 0 := by
  refine ⟨by simp, by simp [Dict.keys], by norm_num, ?_⟩
  intro e he
  simp only [List.mem_cons, List.not_mem_nil, or_false] at he
  rcases he with rfl | rfl <;> norm_num

/-- C122 fails: the wedge can be generated, but a study of it without parameters raises `IndexError`. -/
theorem C122_violated (h : Heap) (id : ℕ) (lib : Lib) (depth : ℕ) (self : Study) (run : Run) (p : ℝ) (write : Bool) (pre : Option String) :
    (∃ v M, Makes (Wedge.ctor h id) lib depth (kwGiven run.store [] []) v [("swept_1", M)]) ∧
      (dvdp self (Wedge.ctor h id) lib depth run [] [] p write pre).1 = .error .index := by
  obtain ⟨g, M, d, -, -, -, g1, g2, -⟩ := wedge_pair h id 1 1 0.1 1 1 1
  have hm := wedge_makes h id lib depth [] (by simp [Dict.keys]) 1 1 0.1 (.inr ⟨by simp, rfl⟩) (.inr ⟨by simp, rfl⟩) (.inr ⟨by simp, rfl⟩) g M d
    g1 g2
  exact ⟨⟨_, M, hm⟩, C122_no_parameters self (Wedge.ctor h id) lib depth run [] p write pre _ _ hm (by simp [wedgeVeh])⟩

/-- The hypotheses of `C122_partial` hold for the wedge with the chord as parameter. -/
example (h : Heap) (id : ℕ) (lib : Lib) (depth : ℕ) (s : Store) : ∃ v ms,
    Makes (Wedge.ctor h id) lib depth (kwGiven s (numbers [("chord", 2)]) []) v ms ∧
    ∃ v' ms', Makes (Wedge.ctor h id) lib depth (kwWith s (numbers [("chord", 2)]) [] "chord" (2 * (1 + 5 / 100))) v' ms' ∧
      Comparable v v' ms ms' (2 * (1 + 5 / 100) - 2) := by
  obtain ⟨M, M', h1, h2, h3⟩ := wedge_perturbed h id lib depth [("chord", 2)] [] (by simp [Dict.keys]) 1 2 0.1 (.inr ⟨by simp, rfl⟩)
    (.inl (by simp)) (.inr ⟨by simp, rfl⟩) "chord" 2 (by simp) (1 + 5 / 100)
  rw [← vals_with s] at h2
  rw [← vals_given s] at h1
  refine ⟨_, _, h1, _, _, h2, ⟨?_, fun h => absurd rfl h, ?_⟩⟩
  · intro x hx
    simp only [List.mem_singleton] at hx
    subst hx
    exact ⟨M', by simp [Dict.get?], by rw [h3]; simp [mapVerts]⟩
  · intro k hk
    simp [wedgeVeh, Dict.keys] at hk

end HV
