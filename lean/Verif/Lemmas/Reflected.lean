import Verif.Props.Finner
import Verif.Props.WingClosed

/-!
# Components with a reflection
-/

namespace HV
open Spec Veh

/-- A component whose only option is a reflection: its meshes in terms of the mesh of the same component without options. -/
theorem reflected_leaf (hp : Heap) (id : ℕ) (out : Reso → GenOut) (hgen : (hp id).gen = .into out) (n : ℕ) (hn : 1 ≤ n)
    (hres : (hp id).stl_resolution = .int n) (hp0 : (hp id).patches = []) (hm : (hp id).mesh_ = none) (hs : (hp id).surfaces = none)
    (h' : Heap) (M : StlMesh) (c' : Comp) (g1 : generatePatches hp id = (.ok (), h')) (g2 : (h' id).mesh = (.ok M, c'))
    (hk : ∀ k ∈ (h' id).patches.map Prod.fst, k ++ "_mirrored" ∉ (h' id).patches.map Prod.fst)
    (hq : Heap) (jd : ℕ) (hgen' : (hq jd).gen = .into out) (hres' : (hq jd).stl_resolution = .int n) (hq0 : (hq jd).patches = [])
    (hm' : (hq jd).mesh_ = none) (hs' : (hq jd).surfaces = none) (hcl : (hq jd).clustering = (hp id).clustering)
    (hmo : (hq jd).modifier = none) (hcu : (hq jd).curvatures = none) (htr : (hq jd).transformations = [])
    (a : String) (i : Fin 3) (ha : NamesAxis a i) (hax : AxisUsed (hq jd).reflection_axis none a) :
    ∃ g c M' c'', generatePatches hq jd = (.ok (), g) ∧ pipeline 0 (g jd) = (.ok (), c) ∧ c.mesh = (.ok M', c'') ∧
      M'.tris = (if (hq jd).append_reflection then M.tris else []) ++ mapVerts (mirrorV i) M.tris := by
  obtain ⟨g, P, R, S, M', c'', b1, b2, b3, b4, b5, b6⟩ := dressed_leaf hp id out hgen n hn hres hp0 hm hs h' M c' g1 g2 hq jd hgen' hres'
    hq0 hm' hs' hcl
  have e1 : (g jd).applyModifier = g jd := by unfold Comp.applyModifier; rw [b2]; simp only [hmo]
  have e2 : (g jd).curve = g jd := by unfold Comp.curve; rw [b2]; simp only [hcu]
  have e4 : (g jd).transformations = [] := by rw [b2]; exact htr
  have hpat : (g jd).patches = P := by rw [b2]
  have hnd : ((g jd).patches.map Prod.fst).Nodup := by rw [hpat]; exact b3
  have hax' : AxisUsed (g jd).reflection_axis none a := by rw [b2]; exact hax
  have hpipe : ∀ c : Comp, (g jd).reflect none = c → c.transformations = [] → pipeline 0 (g jd) = (.ok (), c) := by
    intro c hc ht
    unfold pipeline
    rw [e1, e2, rotate_zero, hc]
    unfold Comp.transform
    rw [ht]; rfl
  by_cases happ : (hq jd).append_reflection = true
  · have happ' : (g jd).append_reflection = true := by rw [b2]; exact happ
    obtain ⟨M2, c2, m1, m2, -⟩ := C51_violated (g jd) a i ha n hn (by rw [b2]; exact hres') (by rw [b2]; exact hm') (by rw [b2]; exact hs')
      hnd (by rw [hpat, b6]; exact hk) hax' happ' M' c'' b4
    refine ⟨g, _, M2, c2, b1, hpipe _ rfl ?_, m1, ?_⟩
    · rw [C50_append_partial (g jd) none a hax' hnd happ' (by rw [hpat, b6]; exact hk)]; exact e4
    · rw [m2, b5, happ]; rfl
  · rw [Bool.not_eq_true] at happ
    have happ' : (g jd).append_reflection = false := by rw [b2]; exact happ
    obtain ⟨M2, c2, m1, m2, -⟩ := C51_replace_partial (g jd) a i ha n hn (by rw [b2]; exact hres') (by rw [b2]; exact hm') (by rw [b2]; exact hs')
      hnd hax' happ' M' c'' b4
    refine ⟨g, _, M2, c2, b1, hpipe _ rfl ?_, m1, ?_⟩
    · rw [C50_replace (g jd) none a hax' hnd happ']; exact e4
    · rw [m2, b5, happ]; rfl

/-- The same without reflection. -/
theorem plain_leaf (hp : Heap) (id : ℕ) (out : Reso → GenOut) (hgen : (hp id).gen = .into out) (n : ℕ) (hn : 1 ≤ n)
    (hres : (hp id).stl_resolution = .int n) (hp0 : (hp id).patches = []) (hm : (hp id).mesh_ = none) (hs : (hp id).surfaces = none)
    (h' : Heap) (M : StlMesh) (c' : Comp) (g1 : generatePatches hp id = (.ok (), h')) (g2 : (h' id).mesh = (.ok M, c'))
    (hq : Heap) (jd : ℕ) (hgen' : (hq jd).gen = .into out) (hres' : (hq jd).stl_resolution = .int n) (hq0 : (hq jd).patches = [])
    (hm' : (hq jd).mesh_ = none) (hs' : (hq jd).surfaces = none) (hcl : (hq jd).clustering = (hp id).clustering)
    (hmo : (hq jd).modifier = none) (hcu : (hq jd).curvatures = none) (htr : (hq jd).transformations = [])
    (hax : (hq jd).reflection_axis = none) :
    ∃ g c M' c'', generatePatches hq jd = (.ok (), g) ∧ pipeline 0 (g jd) = (.ok (), c) ∧ c.mesh = (.ok M', c'') ∧ M'.tris = M.tris := by
  obtain ⟨g, P, R, S, M', c'', b1, b2, b3, b4, b5, b6⟩ := dressed_leaf hp id out hgen n hn hres hp0 hm hs h' M c' g1 g2 hq jd hgen' hres'
    hq0 hm' hs' hcl
  exact ⟨g, _, M', c'', b1, pipeline_plain _ (by rw [b2]; exact hmo) (by rw [b2]; exact hcu) (by rw [b2]; exact hax) (by rw [b2]; exact htr),
    b4, b5⟩

/-- No two patches of a wing have names that differ by `_mirrored`. -/
theorem Wing.no_mirrored (w : Wing.State) : ∀ k ∈ (Wing.stageNames w).flatten, k ++ "_mirrored" ∉ (Wing.stageNames w).flatten := by
  unfold Wing.stageNames
  split <;> split <;> decide

theorem Wing.names {ptan : ℝ → ℝ} {w : Wing.State} {res : ℕ} {name : Option String} {h h' : Heap} {id : ℕ}
    (hid : h id = Wing.comp ptan w res name) (hg : generatePatches h id = (.ok (), h')) :
    (h' id).patches.map Prod.fst = (Wing.stageNames w).flatten := by
  obtain ⟨ls, h1, h2⟩ := (Wing.generated hid).1 (by rw [hg])
  rw [hg] at h2
  rw [h2, List.map_flatten, Wing.names_of_stages h1]

end HV
