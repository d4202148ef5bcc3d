import Verif.Model.Tools
import Verif.Props.VehicleFiles
import Verif.Props.Recorded

/-!
# C144: merging the files of a vehicle
-/

namespace HV
open Spec Veh

namespace Spec

/-- The point lies on a triangle of the mesh. -/
def OnMesh (m : TriMesh ℝ) (q : V) : Prop :=
  ∃ t ∈ m, ∃ a b c : ℝ, 0 ≤ a ∧ 0 ≤ b ∧ 0 ≤ c ∧ a + b + c = 1 ∧
    q = ⟨a * t.v0.x + b * t.v1.x + c * t.v2.x, a * t.v0.y + b * t.v1.y + c * t.v2.y, a * t.v0.z + b * t.v1.z + c * t.v2.z⟩

/-- PyMesh puts meshes together, and cleaning them up keeps the surface. -/
structure KeepsSurface (pm : PyMesh) : Prop where
  merged : ∀ ms q, OnMesh (pm.merge_meshes ms) q ↔ ∃ m ∈ ms, OnMesh m q
  resolved : ∀ m q, OnMesh (pm.resolve_self_intersection m) q ↔ OnMesh m q
  degenerated : ∀ m q, OnMesh (pm.remove_degenerated_triangles m) q ↔ OnMesh m q
  duplicated : ∀ m q, OnMesh (pm.remove_duplicated_faces m) q ↔ OnMesh m q
  isolated : ∀ m q, OnMesh (pm.remove_isolated_vertices m) q ↔ OnMesh m q
  obtuse : ∀ m q, OnMesh (pm.remove_obtuse_triangles m) q ↔ OnMesh m q

end Spec

/-- A PyMesh that cleans nothing. -/
def plainPyMesh : PyMesh := ⟨List.flatten, id, id, id, id, id⟩

theorem plainPyMesh_keeps : KeepsSurface plainPyMesh := by
  refine ⟨fun ms q => ?_, fun _ _ => Iff.rfl, fun _ _ => Iff.rfl, fun _ _ => Iff.rfl, fun _ _ => Iff.rfl, fun _ _ => Iff.rfl⟩
  simp only [plainPyMesh, OnMesh, List.mem_flatten]
  constructor
  · rintro ⟨t, ⟨m, hm, ht⟩, r⟩; exact ⟨m, hm, t, ht, r⟩
  · rintro ⟨m, hm, t, ht, r⟩; exact ⟨t, ⟨m, hm, ht⟩, r⟩

/-- What `merge_stls` does when all files are there. -/
theorem mergeStls_ok (pm : PyMesh) (hk : KeepsSurface pm) (d : StlDisk) (files : List String) (name : Option String) (ms : List (TriMesh ℝ))
    (h : List.Forall₂ (fun f m => d f = some m) files ms) :
    ∃ m, mergeStls (some pm) d files name = (.ok (name.getD "combined_mesh" ++ ".stl"), d.write (name.getD "combined_mesh" ++ ".stl") m) ∧
      ∀ q, OnMesh m q ↔ ∃ m ∈ ms, OnMesh m q := by
  have hl : files.mapM d.load = .ok ms := by
    induction h with
    | nil => rfl
    | @cons f m fs ms h1 _ ih =>
      rw [List.mapM_cons]
      simp only [StlDisk.load, h1]
      rw [ok_bind, show fs.mapM d.load = .ok ms from ih]
      rfl
  unfold mergeStls
  simp only [hl]
  refine ⟨_, rfl, fun q => ?_⟩
  rw [hk.obtuse, hk.isolated, hk.duplicated, hk.degenerated, hk.resolved, hk.merged]

/-- `merge_stls` raises and leaves the files alone when one of them is missing or PyMesh is not installed. -/
theorem mergeStls_fails (pm : Option PyMesh) (d : StlDisk) (files : List String) (name : Option String) (h : pm = none ∨ ∃ f ∈ files, d f = none) :
    mergeStls pm d files name = (.error .exc, d) := by
  unfold mergeStls
  rcases pm with _ | pm
  · rfl
  rcases h with h | ⟨f, hf, h⟩
  · cases h
  have : files.mapM d.load = .error .exc := by
    induction files with
    | nil => simp at hf
    | cons g fs ih =>
      rw [List.mapM_cons]
      rcases hg : d g with _ | m
      · simp only [StlDisk.load, hg]; rfl
      · simp only [StlDisk.load, hg]
        rw [ok_bind, show fs.mapM d.load = .error .exc from ih ?_]
        · rfl
        · rcases List.mem_cons.1 hf with rfl | hf
          · rw [h] at hg; cases hg
          · exact hf
  simp only [this]

/-- Events that are no merge write their STL files in order. -/
theorem runEvents_append (pm : Option PyMesh) (evs evs' : List FsEv) (h : ∀ files q, FsEv.merge files q ∉ evs) : ∀ d : StlDisk,
    runEvents pm d (evs ++ evs') = runEvents pm ((stlFiles evs).foldl (fun d e => d.write e.1 e.2.tris) d) evs' := by
  induction evs with
  | nil => intro d; rfl
  | cons e evs ih =>
    intro d
    have ih := ih fun files q hq => h files q (List.mem_cons_of_mem _ hq)
    rcases e with ⟨f, m⟩ | _ | _ | ⟨files, q⟩
    · exact ih _
    · exact ih _
    · exact ih _
    · exact absurd List.mem_cons_self (h files q)

theorem foldl_write_other (l : List (String × StlMesh)) (f : String) : ∀ d : StlDisk, f ∉ l.map Prod.fst →
    l.foldl (fun d e => d.write e.1 e.2.tris) d f = d f := by
  induction l with
  | nil => intro d _; rfl
  | cons e l ih =>
    intro d h
    simp only [List.map_cons, List.mem_cons, not_or] at h
    rw [List.foldl_cons, ih _ h.2]
    simp [StlDisk.write, h.1]

theorem foldl_write_mem (l : List (String × StlMesh)) (hn : (l.map Prod.fst).Nodup) : ∀ d : StlDisk, ∀ e ∈ l,
    l.foldl (fun d e => d.write e.1 e.2.tris) d e.1 = some e.2.tris := by
  induction l with
  | nil => intro d e he; simp at he
  | cons a l ih =>
    intro d e he
    simp only [List.map_cons, List.nodup_cons] at hn
    rw [List.foldl_cons]
    rcases List.mem_cons.1 he with rfl | he
    · rw [foldl_write_other _ _ _ hn.1]
      simp [StlDisk.write]
    · exact ih hn.2 _ e he

theorem stlFiles_merge (evs : List FsEv) (files : List String) (p : String) : stlFiles (evs ++ [.merge files p]) = stlFiles evs := by
  simp [stlFiles]

/-- Two forms of the same list of files. -/
theorem forall₂_disk (l : List (String × StlMesh)) (d : StlDisk) (h : ∀ e ∈ l, d e.1 = some e.2.tris) :
    List.Forall₂ (fun f m => d f = some m) (l.map Prod.fst) (l.map fun e => e.2.tris) := by
  induction l with
  | nil => exact .nil
  | cons e l ih => exact .cons (h e (by simp)) (ih fun e he => h e (List.mem_cons_of_mem _ he))

theorem map_numbered (ty : ℕ → String) (ks : List ℕ) : ∀ seen, (numbered ty seen ks).map Prod.fst = ks := by
  induction ks with
  | nil => intro seen; rfl
  | cons k ks ih => intro seen; simp [numbered, ih]

/-- The files written for a vehicle of tagged components. -/
theorem tagged_files (st : VState) (pre : Option String) (hp : pre = none ∨ pre = some "") (merge : MergeArg) (ev : List FsEv) (st' : VState)
    (h : toStl st pre merge = (.ok (), ev, st')) (hnamed : st.veh.named.map Prod.snd = st.veh.components)
    (htag : ∀ e ∈ st.veh.named, (st.heap e.2).name = some e.1 ∧ e.1 ≠ "") :
    List.Forall₂ (fun e x => x.1 = e.1 ++ ".stl" ∧ ∃ c, (st.heap e.2).mesh = (.ok x.2, c)) (st.veh.named.filter fun e => !(st.heap e.2).ghost)
      (stlFiles ev) := by
  have h1 := (C69_files st pre merge ev st' h).1
  have h2 : List.Forall₂ (fun (k : ℕ) x => (∀ t, (st.heap k).name = some t → t ≠ "" → x.1 = t ++ ".stl") ∧ ∃ c, (st.heap k).mesh = (.ok x.2, c))
      (((numbered (fun k => (st.heap k).componenttype) [] st.veh.components).filter fun k => !(st.heap k.1).ghost).map Prod.fst) (stlFiles ev) := by
    rw [List.forall₂_map_left_iff]
    exact h1.imp fun k x hx => ⟨fun t e1 e2 => hx.1.2.2.1 t hp e1 e2, hx.2⟩
  have e : ((numbered (fun k => (st.heap k).componenttype) [] st.veh.components).filter fun k => !(st.heap k.1).ghost).map Prod.fst =
      (st.veh.named.filter fun e => !(st.heap e.2).ghost).map Prod.snd := by
    rw [show (fun k : ℕ × ℕ => !(st.heap k.1).ghost) = (fun k => !(st.heap k).ghost) ∘ Prod.fst from rfl, ← List.filter_map, map_numbered,
      show (fun e : String × ℕ => !(st.heap e.2).ghost) = (fun k => !(st.heap k).ghost) ∘ Prod.snd from rfl, ← List.filter_map, hnamed]
  rw [e, List.forall₂_map_left_iff] at h2
  refine ((List.forall₂_and_left (p := fun e => e ∈ st.veh.named) _ _).2 ⟨fun e he => List.mem_of_mem_filter he, h2⟩).imp ?_
  rintro e x ⟨he, h1, h2⟩
  obtain ⟨t1, t2⟩ := htag e he
  exact ⟨h1 _ t1 t2, h2⟩

/-- C144, the part that holds: with PyMesh installed, without a prefix, and with components of different non-empty tags, `to_stl(merge=True)` leaves one file
for every component that is no ghost and not tagged with the name of the vehicle, holding its mesh, and `<vehicle name>.stl`, the surface of which is that
of all these components together, whatever files there were before; other STL files stay as they were.  Missing: prefixes, components without a tag, and
components tagged with the name of the vehicle (see `C144_stale_violated`, `C144_untagged_violated`, `C144_overwritten_violated`). -/
theorem C144_partial (pm : PyMesh) (hk : KeepsSurface pm) (d : StlDisk) (st : VState) (pre : Option String) (hp : pre = none ∨ pre = some "")
    (hm : ∀ k ∈ st.veh.components, (st.heap k).ghost = false → ∃ M c, (st.heap k).mesh = (.ok M, c))
    (hnamed : st.veh.named.map Prod.snd = st.veh.components) (htag : ∀ e ∈ st.veh.named, (st.heap e.2).name = some e.1 ∧ e.1 ≠ "")
    (hnd : st.veh.named.keys.Nodup) :
    ∃ d' st', toStlOnDisk (some pm) d st pre (.bool true) = (.ok (), d', st') ∧
      (∀ e ∈ st.veh.named, (st.heap e.2).ghost = false → e.1 ≠ st.veh.name →
        ∃ M c, (st.heap e.2).mesh = (.ok M, c) ∧ d' (e.1 ++ ".stl") = some M.tris) ∧
      (∃ m, d' (st.veh.name ++ ".stl") = some m ∧
        ∀ q, OnMesh m q ↔ ∃ e ∈ st.veh.named, (st.heap e.2).ghost = false ∧ ∃ M c, (st.heap e.2).mesh = (.ok M, c) ∧ OnMesh M.tris q) ∧
      ∀ f, f ≠ st.veh.name ++ ".stl" → (∀ e ∈ st.veh.named, f ≠ e.1 ++ ".stl") → d' f = d f := by
  obtain ⟨ev, st', h⟩ := toStl_total st pre true hm
  have hT := tagged_files st pre hp _ ev st' h hnamed htag
  have h75 := C75_partial st pre hp ev st' h hnamed htag
  obtain ⟨before, p, e1, e2, -, e3⟩ := C75_call st st' pre ev h
  have e3 := e3 hp
  subst e3
  generalize hfiles : (st.veh.named.filter fun e => !(st'.heap e.2).ghost).map (fun e => e.1 ++ ".stl") = files at e1
  have hb : stlFiles ev = stlFiles before := by rw [e1, stlFiles_merge]
  have hf : files = (stlFiles before).map Prod.fst := by
    rw [e1, List.filterMap_append] at h75
    rw [← hb, e1]
    rw [(List.filterMap_eq_nil_iff (l := before)).2 (by
      intro e he
      rcases e with _ | _ | _ | ⟨a, b⟩
      · rfl
      · rfl
      · rfl
      · exact absurd he (e2 a b))] at h75
    simp only [List.filterMap_cons, List.filterMap_nil, List.nil_append, List.cons.injEq, Prod.mk.injEq] at h75
    exact h75.1.1
  rw [hb] at hT
  have hnames : (stlFiles before).map Prod.fst = (st.veh.named.filter fun e => !(st.heap e.2).ghost).map (fun e => e.1 ++ ".stl") := by
    clear hf hb h75 e1 e2 hfiles
    generalize st.veh.named.filter (fun e => !(st.heap e.2).ghost) = N at hT ⊢
    generalize stlFiles before = F at hT ⊢
    induction hT with
    | nil => rfl
    | cons h1 _ ih => simp [ih, h1.1]
  have hnodup : ((stlFiles before).map Prod.fst).Nodup := by
    rw [hnames, show (fun e : String × ℕ => e.1 ++ ".stl") = (fun s => s ++ ".stl") ∘ Prod.fst from rfl, ← List.map_map]
    exact (hnd.sublist (List.filter_sublist.map _)).map fun a b => append_right_inj'
  have hmemF : ∀ e ∈ st.veh.named, (st.heap e.2).ghost = false → ∃ x ∈ stlFiles before, x.1 = e.1 ++ ".stl" ∧ ∃ c, (st.heap e.2).mesh = (.ok x.2, c) := by
    intro e he hg
    have he' : e ∈ st.veh.named.filter fun e => !(st.heap e.2).ghost := List.mem_filter.2 ⟨he, by simp [hg]⟩
    clear hf hb h75 e1 e2 hfiles hnames hnodup
    generalize st.veh.named.filter (fun e => !(st.heap e.2).ghost) = N at hT he'
    generalize stlFiles before = F at hT ⊢
    induction hT with
    | nil => simp at he'
    | @cons a b l m h1 _ ih =>
      rcases List.mem_cons.1 he' with rfl | he'
      · exact ⟨b, by simp, h1⟩
      · obtain ⟨x, hx, h⟩ := ih he'
        exact ⟨x, by simp [hx], h⟩
  have hmemB : ∀ x ∈ stlFiles before, ∃ e ∈ st.veh.named, (st.heap e.2).ghost = false ∧ x.1 = e.1 ++ ".stl" ∧ ∃ c, (st.heap e.2).mesh = (.ok x.2, c) := by
    intro x hx
    have hN : ∀ e ∈ st.veh.named.filter (fun e => !(st.heap e.2).ghost), e ∈ st.veh.named ∧ (st.heap e.2).ghost = false := by
      intro e he
      rw [List.mem_filter] at he
      exact ⟨he.1, by simpa using he.2⟩
    clear hf hb h75 e1 e2 hfiles hnames hnodup hmemF
    generalize st.veh.named.filter (fun e => !(st.heap e.2).ghost) = N at hT hN
    generalize stlFiles before = F at hT hx
    induction hT with
    | nil => simp at hx
    | @cons a b l m h1 _ ih =>
      rcases List.mem_cons.1 hx with rfl | hx
      · exact ⟨a, (hN a (by simp)).1, (hN a (by simp)).2, h1⟩
      · exact ih (fun e he => hN e (List.mem_cons_of_mem _ he)) hx
  set D := (stlFiles before).foldl (fun (d : StlDisk) e => d.write e.1 e.2.tris) d with hD
  have hDm := foldl_write_mem (stlFiles before) hnodup d
  rw [← hD] at hDm
  obtain ⟨m, g1, g2⟩ := mergeStls_ok pm hk D files (some st.veh.name) ((stlFiles before).map fun e => e.2.tris) (by
    rw [hf]; exact forall₂_disk _ _ hDm)
  simp only [Option.getD_some] at g1
  refine ⟨D.write (st.veh.name ++ ".stl") m, st', ?_, ?_, ⟨m, by simp [StlDisk.write], fun q => ?_⟩, fun f f1 f2 => ?_⟩
  · unfold toStlOnDisk
    simp only [h]
    rw [e1, runEvents_append _ _ _ e2, ← hD]
    simp only [runEvents, g1]
  · intro e he hg hne
    obtain ⟨x, hx, x1, c, x2⟩ := hmemF e he hg
    refine ⟨x.2, c, x2, ?_⟩
    simp only [StlDisk.write, if_neg fun hc => hne (append_right_inj' hc)]
    rw [← x1]
    exact hDm x hx
  · rw [g2]
    constructor
    · rintro ⟨m', hm', hq⟩
      obtain ⟨x, hx, rfl⟩ := List.mem_map.1 hm'
      obtain ⟨e, he, hg, -, c, hc⟩ := hmemB x hx
      exact ⟨e, he, hg, x.2, c, hc, hq⟩
    · rintro ⟨e, he, hg, M, c, hc, hq⟩
      obtain ⟨x, hx, -, c', hc'⟩ := hmemF e he hg
      rw [hc] at hc'
      obtain rfl := Except.ok.inj (Prod.mk.inj hc').1
      exact ⟨_, List.mem_map.2 ⟨x, hx, rfl⟩, hq⟩
  · simp only [StlDisk.write, if_neg f1]
    refine foldl_write_other _ _ _ fun hc => ?_
    obtain ⟨x, hx, rfl⟩ := List.mem_map.1 hc
    obtain ⟨e, he, -, h', -⟩ := hmemB x hx
    exact f2 e he h'

/-- A tagged vehicle meets the hypotheses, and so does a PyMesh that cleans nothing. -/
example : KeepsSurface plainPyMesh ∧
    (∀ k ∈ (demoVehicle (some "a") (some "b") false).veh.components, ((demoVehicle (some "a") (some "b") false).heap k).ghost = false →
      ∃ M c, ((demoVehicle (some "a") (some "b") false).heap k).mesh = (.ok M, c)) ∧
    (demoVehicle (some "a") (some "b") false).veh.named.keys.Nodup := by
  refine ⟨plainPyMesh_keeps, fun k _ _ => ?_, by simp [demoVehicle, Dict.keys]⟩
  by_cases hk : k = 0
  · subst hk; exact demo_mesh _ rfl rfl rfl rfl rfl
  · simp only [demoVehicle, if_neg hk]; exact demo_mesh _ rfl rfl rfl rfl rfl

/-- What `to_stl(merge=True)` leaves: the files of the components are written first, then `merge_stls` is called. -/
theorem onDisk_merge (pm : Option PyMesh) (d : StlDisk) (st : VState) (pre : Option String) (ev : List FsEv) (st' : VState)
    (h : toStl st pre (.bool true) = (.ok (), ev, st')) :
    ∃ p, (∀ q, pre = some q → q ≠ "" → p = q) ∧ (pre = none ∨ pre = some "" → p = st.veh.name) ∧
      toStlOnDisk pm d st pre (.bool true) =
        ((mergeStls pm ((stlFiles ev).foldl (fun d e => d.write e.1 e.2.tris) d)
            ((st.veh.named.filter fun e => !(st.heap e.2).ghost).map fun e => e.1 ++ ".stl") (some p)).1.map fun _ => (),
          (mergeStls pm ((stlFiles ev).foldl (fun d e => d.write e.1 e.2.tris) d)
            ((st.veh.named.filter fun e => !(st.heap e.2).ghost).map fun e => e.1 ++ ".stl") (some p)).2, st') := by
  obtain ⟨before, p, e1, e2, e3, e4⟩ := C75_call st st' pre ev h
  obtain ⟨-, -, h3⟩ := C69_files st pre _ ev st' h
  have hgh : ∀ k, (st'.heap k).ghost = (st.heap k).ghost := by
    intro k
    obtain ⟨s, m, e⟩ := h3 k
    rw [e]
  simp only [hgh] at e1
  refine ⟨p, e3, e4, ?_⟩
  have hb : stlFiles ev = stlFiles before := by rw [e1, stlFiles_merge]
  unfold toStlOnDisk
  rw [h]
  simp only
  rw [hb, e1, runEvents_append _ _ _ e2]
  simp only [runEvents]
  generalize mergeStls pm ((stlFiles before).foldl (fun d e => d.write e.1 e.2.tris) d)
      ((st.veh.named.filter fun e => !(st.heap e.2).ghost).map fun e => e.1 ++ ".stl") (some p) = x
  rcases x with ⟨x | x, d'⟩ <;> rfl

/-- With a prefix the merged file does not hold the components of the vehicle but whatever is found in files written without that prefix: here the
vehicle has two components, and the merged file is made of two meshes left on disk by something else. -/
theorem C144_stale_violated (pm : PyMesh) (hk : KeepsSurface pm) : ∃ st : VState,
    st.veh.named.map Prod.snd = st.veh.components ∧ (∀ e ∈ st.veh.named, (st.heap e.2).name = some e.1 ∧ e.1 ≠ "" ∧ (st.heap e.2).ghost = false) ∧
    ∀ (d : StlDisk) (X Y : TriMesh ℝ), d "a.stl" = some X → d "b.stl" = some Y → ∃ d' st' m,
      toStlOnDisk (some pm) d st (some "p") (.bool true) = (.ok (), d', st') ∧ d' "p.stl" = some m ∧ ∀ q, OnMesh m q ↔ OnMesh X q ∨ OnMesh Y q := by
  obtain ⟨ev, st', h⟩ := demoVehicle_files (some "a") (some "b") false (some "p") true
  refine ⟨demoVehicle (some "a") (some "b") false, rfl, ?_, fun d X Y hX hY => ?_⟩
  · intro e he
    simp [demoVehicle] at he
    rcases he with rfl | rfl <;> simp [demoVehicle, demoComp] <;> decide
  obtain ⟨f, g, M, N, e, hf, hg⟩ := demoVehicle_stl _ _ _ _ _ _ h
  obtain rfl := hf.1 "p" "a" rfl (by decide) rfl (by decide)
  obtain rfl := hg.1 "p" "b" rfl (by decide) rfl (by decide)
  obtain ⟨p, p1, -, hd⟩ := onDisk_merge (some pm) d _ _ _ _ h
  obtain rfl := p1 "p" rfl (by decide)
  rw [e] at hd
  have hfl : ((demoVehicle (some "a") (some "b") false).veh.named.filter fun e => !((demoVehicle (some "a") (some "b") false).heap e.2).ghost).map
      (fun e => e.1 ++ ".stl") = ["a.stl", "b.stl"] := by
    simp [demoVehicle, demoComp]
  rw [hfl] at hd
  obtain ⟨m, g1, g2⟩ := mergeStls_ok pm hk ([("p" ++ "-" ++ "a" ++ ".stl", M), ("p" ++ "-" ++ "b" ++ ".stl", N)].foldl
    (fun (d : StlDisk) e => d.write e.1 e.2.tris) d) ["a.stl", "b.stl"] (some "p") [X, Y] (by
      refine .cons ?_ (.cons ?_ .nil)
      · rw [foldl_write_other _ _ _ (by simp only [List.map_cons, List.map_nil]; decide), hX]
      · rw [foldl_write_other _ _ _ (by simp only [List.map_cons, List.map_nil]; decide), hY])
  rw [g1] at hd
  refine ⟨_, st', m, hd, by simp [StlDisk.write], fun q => ?_⟩
  rw [g2]
  simp

/-- Components without a tag, or any prefix in a directory without older files: the files of the components are written, then an exception is raised and no
merged file is written, although PyMesh is installed. -/
theorem C144_untagged_violated (pm : PyMesh) : ∃ (st : VState) (d' : StlDisk) (st' : VState),
    st.veh.named.map Prod.snd = st.veh.components ∧ st.veh.named.keys.Nodup ∧
    toStlOnDisk (some pm) (fun _ => none) st none (.bool true) = (.error .exc, d', st') ∧ d' (st.veh.name ++ ".stl") = none ∧
    d' "vehicle-wing-0.stl" ≠ none ∧ d' "vehicle-wing-1.stl" ≠ none := by
  obtain ⟨ev, st', h⟩ := demoVehicle_files none none false none true
  obtain ⟨f, g, M, N, e, hf, hg⟩ := demoVehicle_stl _ _ _ _ _ _ h
  have hf := hf.2.2.2 (.inl rfl) (.inl rfl)
  have hg := hg.2.2.2 (.inl rfl) (.inl rfl)
  obtain rfl : f = "vehicle-wing-0.stl" := hf
  obtain rfl : g = "vehicle-wing-1.stl" := hg
  obtain ⟨p, -, -, hd⟩ := onDisk_merge (some pm) (fun _ => none) _ _ _ _ h
  rw [e] at hd
  have hfl : ((demoVehicle none none false).veh.named.filter fun e => !((demoVehicle none none false).heap e.2).ghost).map
      (fun e => e.1 ++ ".stl") = ["wing_1.stl", "wing_2.stl"] := by
    simp [demoVehicle, demoComp]
  rw [hfl, mergeStls_fails _ _ _ _ (.inr ⟨"wing_1.stl", by simp, by rw [foldl_write_other _ _ _ (by simp only [List.map_cons, List.map_nil]; decide)]⟩)] at hd
  refine ⟨demoVehicle none none false, _, st', rfl, by simp [demoVehicle, Dict.keys], hd, ?_, ?_, ?_⟩
  · refine foldl_write_other _ _ _ ?_
    show "vehicle.stl" ∉ ["vehicle-wing-0.stl", "vehicle-wing-1.stl"]
    decide
  · simp [StlDisk.write]
  · simp [StlDisk.write]

/-- Two flat triangles, one above the other. -/
def triAt (z : ℝ) : TriMesh ℝ := [⟨⟨0, 0, z⟩, ⟨1, 0, z⟩, ⟨0, 1, z⟩⟩]

/-- A vehicle of two meshed components, the first with the tag `vehicle`, which is also the name of a vehicle that was not given one. -/
noncomputable def sameNameVehicle : VState :=
  ⟨fun k => if k = 0 then { demoComp with name := some "vehicle", mesh_ := some (.ofTris (triAt 0)) }
      else { demoComp with name := some "b", mesh_ := some (.ofTris (triAt 1)) },
   { components := [0, 1], named := [("vehicle", 0), ("b", 1)], generated := true }⟩

/-- A component tagged with the name of the vehicle loses its own file to the merged one. -/
theorem C144_overwritten_violated (pm : PyMesh) (hk : KeepsSurface pm) (d : StlDisk) : ∃ (st : VState) (d' : StlDisk) (st' : VState) (e : String × ℕ),
    st.veh.named.map Prod.snd = st.veh.components ∧ st.veh.named.keys.Nodup ∧
    (∀ e ∈ st.veh.named, (st.heap e.2).name = some e.1 ∧ e.1 ≠ "" ∧ (st.heap e.2).ghost = false) ∧
    toStlOnDisk (some pm) d st none (.bool true) = (.ok (), d', st') ∧ e ∈ st.veh.named ∧
    ∀ M c, (st.heap e.2).mesh = (.ok M, c) → d' (e.1 ++ ".stl") ≠ some M.tris := by
  have ht : ∀ e ∈ sameNameVehicle.veh.named,
      (sameNameVehicle.heap e.2).name = some e.1 ∧ e.1 ≠ "" ∧ (sameNameVehicle.heap e.2).ghost = false := by
    intro e he
    simp [sameNameVehicle] at he
    rcases he with rfl | rfl <;> simp [sameNameVehicle, demoComp] <;> decide
  have m0 : (sameNameVehicle.heap 0).mesh = (.ok (.ofTris (triAt 0)), sameNameVehicle.heap 0) := by
    simp [sameNameVehicle, Comp.mesh, StlMesh.ofTris, triAt]
  have m1 : (sameNameVehicle.heap 1).mesh = (.ok (.ofTris (triAt 1)), sameNameVehicle.heap 1) := by
    simp [sameNameVehicle, Comp.mesh, StlMesh.ofTris, triAt]
  obtain ⟨d', st', h, -, ⟨m, h1, h2⟩, -⟩ := C144_partial pm hk d sameNameVehicle none (.inl rfl) (by
    intro k hk _
    have : k = 0 ∨ k = 1 := by simpa [sameNameVehicle] using hk
    rcases this with rfl | rfl
    · exact ⟨_, _, m0⟩
    · exact ⟨_, _, m1⟩) rfl (fun e he => ⟨(ht e he).1, (ht e he).2.1⟩) (by simp [sameNameVehicle, Dict.keys])
  refine ⟨sameNameVehicle, d', st', ("vehicle", 0), rfl, by simp [sameNameVehicle, Dict.keys], ht, h, by simp [sameNameVehicle], ?_⟩
  intro M c hM hd
  rw [m0] at hM
  obtain rfl := Except.ok.inj (Prod.mk.inj hM).1
  change d' ("vehicle" ++ ".stl") = some m at h1
  simp only at hd
  rw [h1] at hd
  obtain rfl := Option.some.inj hd
  have h3 : OnMesh (triAt 1) ⟨0, 0, 1⟩ := ⟨_, List.mem_singleton.2 rfl, 1, 0, 0, by norm_num, by norm_num, by norm_num, by norm_num, by norm_num⟩
  obtain ⟨t, t1, a, b, c, ha, hb, hc, hs, hq⟩ := (h2 ⟨0, 0, 1⟩).2 ⟨("b", 1), by simp [sameNameVehicle], (ht _ (by simp [sameNameVehicle])).2.2, _, _, m1, h3⟩
  obtain rfl := List.mem_singleton.1 t1
  have := congrArg Vec.z hq
  norm_num at this

/-- Without PyMesh merging raises after the files of the components have been written; nothing else changes on disk. -/
theorem C144_no_pymesh (d : StlDisk) (st : VState) (pre : Option String) (ev : List FsEv) (st' : VState)
    (h : toStl st pre (.bool true) = (.ok (), ev, st')) : ∃ d', toStlOnDisk none d st pre (.bool true) = (.error .exc, d', st') ∧
      (((stlFiles ev).map Prod.fst).Nodup → ∀ x ∈ stlFiles ev, d' x.1 = some x.2.tris) ∧
      ∀ f, f ∉ (stlFiles ev).map Prod.fst → d' f = d f := by
  obtain ⟨p, -, -, hd⟩ := onDisk_merge none d _ _ _ _ h
  rw [mergeStls_fails _ _ _ _ (.inl rfl)] at hd
  exact ⟨_, hd, fun hn => foldl_write_mem _ hn d, fun f hf => foldl_write_other _ _ _ hf⟩

example : ∃ ev st', toStl (demoVehicle (some "a") none true) (some "p") (.bool true) = (.ok (), ev, st') := demoVehicle_files _ _ _ _ _

end HV
