import Verif.Lemmas.ScaleComp
import Verif.Props.MassProps
import Verif.Props.Wing
import Verif.Props.Edges
import Verif.Props.Check
import Mathlib.Analysis.SpecialFunctions.Pow.Real

/-!
# C126: the unit of length does not matter
-/

namespace HV

namespace Spec

/-- Effects of `to_stl` that agree except for the unit of the meshes written. -/
inductive EvScaled (k : ℝ) : Veh.FsEv → Veh.FsEv → Prop
  | stl (f : String) {m m' : StlMesh} : StlScaled k m m' → EvScaled k (.stl f m) (.stl f m')
  | dir (p : String) : EvScaled k (.dir p) (.dir p)
  | file (p : String) : EvScaled k (.file p) (.file p)
  | merge (l : List String) (n : String) : EvScaled k (.merge l n) (.merge l n)

end Spec

open Spec

section
variable {k : ℝ}

/-! ## New components -/

theorem new_scaled (ty : String) {g g' : GenKind} (hg : GenScaled k g g') (res : Reso) (name : Option String) :
    CompScaled k { componenttype := ty, gen := g, stl_resolution := res, name := name }
      { componenttype := ty, gen := g', stl_resolution := res, name := name } where
  componenttype := rfl
  gen := hg
  patches := .nil
  patch_res_r := rfl
  patch_res_s := rfl
  surfaces := .none
  stl_resolution := rfl
  mesh_ := .none
  curvatures := .none
  clustering := rfl
  transformations := .nil
  modifier := .none
  reflection_axis := rfl
  append_reflection := rfl
  ghost := rfl
  name := rfl
  multiprocess := rfl

theorem revolvedComponent_scaled {l l' : PathObj} (h : PathScaled k l l') (res : ℕ) (name : Option String) :
    CompScaled k (RevolvedComponent l res name) (RevolvedComponent l' res name) :=
  new_scaled _ (.into fun _ => revolved_scaled h) _ _

theorem swept_comp_scaled (hk : 0 < k) {S T : List (List PathObj)} (hk1 : k ≤ 1 ∨ ∀ cs ∈ S, cs.length = 4 ∧ Joined cs) (h : SectionsScaled k S T) (close : Bool) (res : Reso)
    (name : Option String) : Follows (CompScaled k) (Swept.init S close res name) (Swept.init T close res name) := by
  intro c hc
  obtain ⟨d, hd, n, rfl, rfl⟩ := swept_init_scaled hk hk1 h close res name c hc
  exact ⟨_, hd, new_scaled _ (.into fun r => swept_scaled hk hk1 h n close r) _ _⟩

theorem psqrt_scaled (hk : 0 < k) {a b : ℝ} (h : b = a * k ^ 2) : Follows (LengthScaled k) (psqrt a) (psqrt b) := by
  unfold psqrt
  have : b < 0 ↔ a < 0 := by
    rw [h]
    exact ⟨fun h => by nlinarith [sq_nonneg k], fun h => by nlinarith [pow_pos hk 2]⟩
  simp only [this]
  split
  · exact follows_error
  · refine follows_ok ?_
    rw [LengthScaled, h, Real.sqrt_mul' _ (by positivity), Real.sqrt_sq hk.le]

/-- The arcs of an ogive nose are exact. -/
theorem ogive_exact {h r_n r_o q y p : ℝ} (h0 : 0 ≤ r_n) (h1 : r_n < r_o) (hq : psqrt ((r_o - r_n) ^ 2 - (r_o - h) ^ 2) = .ok q)
    (hy : y * (r_o - r_n) = r_n * (r_o - h)) (hp : psqrt (r_n ^ 2 - y ^ 2) = .ok p) :
    p ^ 2 + y ^ 2 = r_n ^ 2 ∧ (q + p) ^ 2 + (y + r_o - h) ^ 2 = r_o ^ 2 := by
  have key : ∀ {x s : ℝ}, psqrt x = .ok s → 0 ≤ s ∧ s ^ 2 = x := by
    intro x s hs
    unfold psqrt at hs
    split at hs
    · cases hs
    · rename_i h
      cases hs
      exact ⟨Real.sqrt_nonneg _, Real.sq_sqrt (not_lt.1 h)⟩
  obtain ⟨q0, q2⟩ := key hq
  obtain ⟨p0, p2⟩ := key hp
  have hρ : 0 < r_o - r_n := by linarith
  have hpq : p * (r_o - r_n) = q * r_n := by
    have : (p * (r_o - r_n)) ^ 2 = (q * r_n) ^ 2 := by
      rw [mul_pow, mul_pow, p2, q2]
      linear_combination (-y * (r_o - r_n) - r_n * (r_o - h)) * hy
    exact (pow_left_inj₀ (by positivity) (by positivity) (by norm_num)).1 this
  refine ⟨by rw [p2]; ring, ?_⟩
  have : ((q + p) ^ 2 + (y + r_o - h) ^ 2) * (r_o - r_n) ^ 2 = r_o ^ 2 * (r_o - r_n) ^ 2 := by
    have e1 : (q + p) * (r_o - r_n) = q * r_o := by linear_combination hpq
    have e2 : (y + r_o - h) * (r_o - r_n) = (r_o - h) * r_o := by linear_combination hy
    calc _ = ((q + p) * (r_o - r_n)) ^ 2 + ((y + r_o - h) * (r_o - r_n)) ^ 2 := by ring
      _ = _ := by rw [e1, e2, mul_pow, q2]; ring
  exact mul_right_cancel₀ (pow_ne_zero 2 hρ.ne') this

theorem abs_eq_of_sq {u v : V} (h : u.x ^ 2 + u.y ^ 2 + u.z ^ 2 = v.x ^ 2 + v.y ^ 2 + v.z ^ 2) : u.abs = v.abs := by
  unfold Vec.abs
  rw [h]

theorem pdiv_mul {a b c : ℝ} (h : pdiv a b = .ok c) : c * b = a := by
  unfold pdiv at h
  split at h
  · cases h
  · cases h
    field_simp

theorem ogive_scaled (hk : 0 < k) (h r_n r_o L_o : ℝ) (hk1 : k ≤ 1 ∨ (0 ≤ r_n ∧ r_n < r_o)) (res : ℕ) (name : Option String) :
    Follows (CompScaled k) (Ogive.comp h r_n r_o L_o res name) (Ogive.comp (h * k) (r_n * k) (r_o * k) (L_o * k) res name) := by
  unfold Ogive.comp Ogive.line Ogive.segments Ogive.dims
  simp only [bind_assoc, pure_eq, ok_bind]
  refine follows_bind (follows_and (psqrt_scaled hk (by ring))) fun q q' hq => follows_bind (R := fun a b => _ ∧ LengthScaled k a b) (follows_and ?_)
    fun y y' hy => follows_bind (follows_and (psqrt_scaled hk ?_)) fun p p' hp => follows_bind (polyline_scaled hk ?_) fun l l' hl =>
    follows_ok (revolvedComponent_scaled hl _ _)
  · exact follows_pdiv_length hk (by ring) (by ring)
  · rw [show y' = _ from hy.2]; ring
  · obtain ⟨gq, hq⟩ := hq
    obtain ⟨gy, hy⟩ := hy
    obtain ⟨gp, hp⟩ := hp
    rw [LengthScaled] at hq hy hp
    subst hq hy hp
    have z : ∀ {x y x' y' : ℝ}, x' = x * k → y' = y * k → PointScaled k ⟨x, y, 0⟩ ⟨x', y', 0⟩ :=
      fun h1 h2 => scaled_mk h1 h2 (by simp)
    have hf := scaled_sub (k := k) (p := ⟨0, h, 0⟩) (p' := ⟨0, h * k, 0⟩) (q := ⟨L_o, 0, 0⟩) (q' := ⟨L_o * k, 0, 0⟩)
      (z (by simp) rfl) (z rfl (by simp))
    have ex := fun hh : 0 ≤ r_n ∧ r_n < r_o => ogive_exact hh.1 hh.2 gq (pdiv_mul gy) gp
    refine .cons (arc_scaled hk (hk1.imp id fun hh => abs_eq_of_sq ?_) (z (by ring) (by simp)) (z (by ring) (by ring)) (z (by ring) (by simp)))
      (.cons (arc_scaled hk (hk1.imp id fun hh => abs_eq_of_sq ?_) (z (by ring) (by ring)) (z (by ring) (by ring)) (z (by ring) (by ring)))
      (.cons (line_scaled hk (z (by ring) (by ring)) hf) (.cons (line_scaled hk hf (z ?_ (by simp))) .nil)))
    · have := (ex hh).1
      simp
      linear_combination -this
    · have := (ex hh).2
      simp
      linear_combination this
    · simp

/-- C126, components: whenever a swept or revolved body, an ogive nose, a box or a ball can be built from given lengths, it can be built from `k` times
these lengths, and is the same component measured in the other unit: its patches are those of the first, multiplied by `k`, whatever happens later.
For `k > 1` the edges of the sections must meet exactly, and the radii of the nose must be in order. -/
theorem C126_bodies_partial (hk : 0 < k) (res : ℕ) (name : Option String) :
    (∀ S T close r, (k ≤ 1 ∨ ∀ cs ∈ S, cs.length = 4 ∧ Joined cs) → SectionsScaled k S T →
      Follows (CompScaled k) (Swept.init S close r name) (Swept.init T close r name)) ∧
    (∀ l l', PathScaled k l l' → CompScaled k (RevolvedComponent l res name) (RevolvedComponent l' res name)) ∧
    (∀ h r_n r_o L, (k ≤ 1 ∨ (0 ≤ r_n ∧ r_n < r_o)) →
      Follows (CompScaled k) (Ogive.comp h r_n r_o L res name) (Ogive.comp (h * k) (r_n * k) (r_o * k) (L * k) res name)) ∧
    (∀ a c, CompScaled k (Cube a c res name) (Cube (a * k) (c * k) res name)) ∧
    (∀ r c, CompScaled k (Sphere r c res name) (Sphere (r * k) (c * k) res name)) := by
  refine ⟨?_, ?_, ?_, ?_, ?_⟩
  · intro S T close r hS h
    exact swept_comp_scaled hk hS h close r name
  · intro l l' h
    exact revolvedComponent_scaled h res name
  · intro h r_n r_o L hr
    exact ogive_scaled hk h r_n r_o L hr res name
  · intro a c
    exact new_scaled _ (.into fun _ => faces_scaled fun f => cubePatch_scaled rfl rfl f) _ _
  · intro r c
    exact new_scaled _ (.into fun _ => faces_scaled fun f => spherePatch_scaled rfl rfl f) _ _

/-- C126, wings and fins: the same for `k ≤ 1`. -/
theorem C126_wings_partial (hk : 0 < k) (hk1 : k ≤ 1) (find : (ℝ → Res ℝ) → Res ℝ) (hfind : FindScaled k find) (ptan : ℝ → ℝ)
    (res : ℕ) (name : Option String) :
    (∀ a b, WingScaled k a b → Follows (CompScaled k) (do return Wing.comp ptan (← Wing.init find a) res name)
      (do return Wing.comp ptan (← Wing.init find b) res name)) ∧
    (∀ a b, FinScaled k a b → CompScaled k (Fin.comp find ptan a res name) (Fin.comp find ptan b res name)) := by
  refine ⟨?_, ?_⟩
  · intro a b h
    refine follows_bind (wing_init_scaled hfind h) fun w w' hw => follows_pure ?_
    exact new_scaled _ (.into fun _ => wing_scaled hk hk1 ptan hw) _ _
  · intro a b h
    exact new_scaled _ (.replace fun _ => fin_scaled hk hk1 hfind ptan h) _ _

/-- The bisection used for the break points of leading edges finds the same parameter in every unit. -/
theorem C126_bisection (hk : 0 < k) : FindScaled k roundedBisect := roundedBisect_scaled hk

/-! ## Files -/

theorem writeAll_scaled (pre : Option String) (vname : String) (l : List ℕ) : ∀ (no : Dict String ℕ) {h h' : Heap},
    (∀ id, CompScaled k (h id) (h' id)) → (Veh.writeAll pre vname no h l).1 = .ok () →
    (Veh.writeAll pre vname no h' l).1 = .ok () ∧
    List.Forall₂ (EvScaled k) (Veh.writeAll pre vname no h l).2.1 (Veh.writeAll pre vname no h' l).2.1 ∧
    ∀ id, CompScaled k ((Veh.writeAll pre vname no h l).2.2 id) ((Veh.writeAll pre vname no h' l).2.2 id) := by
  induction l with
  | nil => exact fun no h h' hh _ => ⟨rfl, .nil, hh⟩
  | cons i l ih =>
    intro no h h' hh
    have hc := hh i
    unfold Veh.writeAll
    have hn : ∀ n, Veh.stlName pre vname (h' i) n = Veh.stlName pre vname (h i) n := by
      intro n
      unfold Veh.stlName
      rw [hc.name, hc.componenttype]
    simp only [hc.componenttype, hn]
    have hs := toStl_scaled hc (some (Veh.stlName pre vname (h i) ((no.get? (h i).componenttype).getD 0)))
    rcases e : (h i).toStl (some (Veh.stlName pre vname (h i) ((no.get? (h i).componenttype).getD 0))) with ⟨_ | ev, d⟩ <;> rw [e] at hs
    · intro ha
      cases ha
    · obtain ⟨ev', e', hev, hd⟩ := hs ev rfl
      rcases e2 : (h' i).toStl (some (Veh.stlName pre vname (h i) ((no.get? (h i).componenttype).getD 0))) with ⟨_ | x, d'⟩ <;>
        rw [e2] at e' hd
      · cases e'
      cases e'
      intro ha
      obtain ⟨h1, h2, h3⟩ := ih _ (upd_scaled hh i hd) ha
      refine ⟨h1, List.rel_append ?_ h2, h3⟩
      cases hev with
      | none => exact .nil
      | @some x y hxy =>
        obtain ⟨f, m⟩ := x
        obtain ⟨f', m'⟩ := y
        obtain ⟨h4, h5⟩ := hxy
        simp only at h4
        subst h4
        exact .cons (.stl _ h5) .nil

theorem vtoStl_scaled {st st' : VState} (h : StateScaled k st st') (pre : Option String) (merge : Veh.MergeArg)
    (ha : (Veh.toStl st pre merge).1 = .ok ()) : (Veh.toStl st' pre merge).1 = .ok () ∧
    List.Forall₂ (EvScaled k) (Veh.toStl st pre merge).2.1 (Veh.toStl st' pre merge).2.1 ∧
    StateScaled k (Veh.toStl st pre merge).2.2 (Veh.toStl st' pre merge).2.2 := by
  have hw := writeAll_scaled pre st.veh.name st.veh.components [] h.heap
  unfold Veh.toStl at ha ⊢
  rw [h.veh.name, h.veh.components]
  rcases e : Veh.writeAll pre st.veh.name [] st.heap st.veh.components with ⟨_ | u, ev, g⟩ <;> rw [e] at ha hw
  · cases ha
  obtain ⟨h1, h2, h3⟩ := hw rfl
  rcases e' : Veh.writeAll pre st.veh.name [] st'.heap st.veh.components with ⟨_ | u', ev', g'⟩ <;> rw [e'] at h1 h2 h3
  · cases h1
  simp only at ha h2 h3 ⊢
  have hs : StateScaled k ⟨g, st.veh⟩ ⟨g', st'.veh⟩ := ⟨h3, h.veh⟩
  have hm : Veh.mergeStep ⟨g', st'.veh⟩ (Veh.prefixOr pre st.veh.name) merge = Veh.mergeStep ⟨g, st.veh⟩ (Veh.prefixOr pre st.veh.name) merge := by
    have : Veh.mergeFiles ⟨g', st'.veh⟩ = Veh.mergeFiles ⟨g, st.veh⟩ := by
      unfold Veh.mergeFiles
      simp only [h.veh.named]
      congr 1
      apply List.filter_congr
      intro e _
      rw [(h3 e.2).ghost]
    rcases merge with ⟨⟨⟩⟩ | ⟨_ | _⟩ <;> simp only [Veh.mergeStep, this]
  rw [hm]
  refine ⟨ha, ?_, hs⟩
  refine List.rel_append (List.rel_append (List.rel_append h2 ?_) ?_) ?_
  · have := h.veh.analysisResults
    unfold Veh.resultEvents
    rcases e1 : st.veh.analysisResults with _ | a <;> rcases e2 : st'.veh.analysisResults with _ | a' <;> rw [e1, e2] at this
    · exact .nil
    · cases this
    · cases this
    · exact .cons (.dir _) (.cons (.file _) (.cons (.file _) (.cons (.file _) .nil)))
  · unfold Veh.propertyEvents
    rw [h.veh.properties]
    split
    · exact .nil
    · exact .cons (.dir _) (.cons (.file _) .nil)
  · rcases merge with ⟨⟨⟩⟩ | ⟨_ | _⟩
    · exact .nil
    · exact .cons (.merge _ _) .nil
    · exact .nil
    · exact .nil

/-- C126, vehicles: a vehicle described in another unit of length is generated and analysed without an exception whenever the first is, and is then
still the same vehicle in the other unit: all patches and meshes are multiplied by `k`, volumes and masses by `k³`, areas by `k²`, moments of inertia
by `k⁵`; the files written have the same names and contain the meshes multiplied by `k`. -/
theorem C126_vehicle (hk : 0 < k) (lib : Lib) (hlib : LibScaled k lib) (depth : ℕ) (st st' : VState) (h : StateScaled k st st')
    (hg : (Veh.generate lib depth st).1 = .ok ()) :
    (Veh.generate lib depth st').1 = .ok () ∧ StateScaled k (Veh.generate lib depth st).2 (Veh.generate lib depth st').2 ∧
    (∀ dens a, (Veh.analyse lib depth (Veh.generate lib depth st).2 dens).1 = .ok a →
      ∃ a', (Veh.analyse lib depth (Veh.generate lib depth st').2 dens).1 = .ok a' ∧ AnalysisScaled k a a') ∧
    ∀ pre merge, (Veh.toStl (Veh.generate lib depth st).2 pre merge).1 = .ok () →
      (Veh.toStl (Veh.generate lib depth st').2 pre merge).1 = .ok () ∧
      List.Forall₂ (EvScaled k) (Veh.toStl (Veh.generate lib depth st).2 pre merge).2.1
        (Veh.toStl (Veh.generate lib depth st').2 pre merge).2.1 := by
  obtain ⟨_, h1, -, h2⟩ := generate_scaled hk hlib depth h () hg
  refine ⟨h1, h2, fun dens a ha => ?_, fun pre merge ha => ?_⟩
  · obtain ⟨a', e, h3, -⟩ := analyse_scaled hk hlib depth _ _ dens h2 a ha
    exact ⟨a', e, h3⟩
  · obtain ⟨h3, h4, -⟩ := vtoStl_scaled h2 pre merge ha
    exact ⟨h3, h4⟩

/-! ## What a scaled mesh means -/

theorem mapVerts_cons {β γ : Type} (f : Vec β → Vec γ) (t : Tri β) (m : TriMesh β) :
    mapVerts f (t :: m) = ⟨f t.v0, f t.v1, f t.v2⟩ :: mapVerts f m := rfl

theorem signedVolume_scaled {m m' : TriMesh ℝ} (h : MeshScaled k m m') : signedVolume m' = signedVolume m * k ^ 3 := by
  rw [MeshScaled] at h
  subst h
  induction m with
  | nil => simp [signedVolume, mapVerts]
  | cons t m ih =>
    unfold signedVolume at ih ⊢
    rw [mapVerts_cons, List.map_cons, List.sum_cons, List.map_cons, List.sum_cons, ih]
    simp [det3]; ring

theorem normal_scaled (t : Tri ℝ) : Tri.normal ⟨t.v0 * k, t.v1 * k, t.v2 * k⟩ = t.normal * (k * k) := by
  ext <;> simp [Tri.normal, Vec.cross] <;> ring

theorem reversedTris_scaled (hk : 0 < k) {m m' : StlMesh} (h : StlScaled k m m') : reversedTris m' = reversedTris m := by
  unfold reversedTris
  rw [show m'.tris = _ from h.tris, h.normals]
  unfold mapVerts
  rw [List.zipWith_map]
  congr 1
  funext t n
  rw [decide_eq_decide, normal_scaled]
  have : (t.normal * (k * k)).dot (n * (k * k)) = t.normal.dot n * (k ^ 4) := by simp [Vec.dot]; ring
  rw [this]
  have hk4 : 0 < k ^ 4 := pow_pos hk 4
  exact ⟨fun h => by nlinarith, fun h => by nlinarith⟩

theorem directedEdgeList_map {β γ : Type} (f : Vec β → Vec γ) (rev : List Bool) (m : TriMesh β) :
    directedEdgeList rev (mapVerts f m) = (directedEdgeList rev m).map (Prod.map f f) := by
  unfold directedEdgeList mapVerts
  simp only [List.zipWith_map_right, List.map_append, List.map_zipWith]
  have : ∀ (r : Bool) (e : Vec β × Vec β), (if r = true then ((f e.2), (f e.1)) else (f e.1, f e.2)) = Prod.map f f (if r = true then (e.2, e.1) else e) := by
    intro r e
    cases r <;> rfl
  congr 1
  · congr 1
    · congr 1
      funext r t
      exact this r (t.v0, t.v1)
    · congr 1
      funext r t
      exact this r (t.v1, t.v2)
  · congr 1
    funext r t
    exact this r (t.v2, t.v0)

theorem mul_injective (hk : 0 < k) : Function.Injective fun v : V => v * k := by
  intro u v h
  have hx := congrArg Vec.x h
  have hy := congrArg Vec.y h
  have hz := congrArg Vec.z h
  simp only [Vec.mul_x, Vec.mul_y, Vec.mul_z] at hx hy hz
  ext
  · exact mul_right_cancel₀ hk.ne' hx
  · exact mul_right_cancel₀ hk.ne' hy
  · exact mul_right_cancel₀ hk.ne' hz

open Classical in
theorem directedEdges_scaled (hk : 0 < k) {m m' : StlMesh} (h : StlScaled k m m') :
    directedEdges m' = (directedEdges m).image (Prod.map (fun v : V => v * k) fun v : V => v * k) := by
  unfold directedEdges
  rw [reversedTris_scaled hk h, show m'.tris = _ from h.tris, directedEdgeList_map]
  ext e
  simp [List.mem_toFinset]

open Classical in
theorem undirected_scaled (hk : 0 < k) (d : Finset (V × V)) :
    (undirectedEdges (d.image (Prod.map (fun v : V => v * k) fun v : V => v * k))).card = (undirectedEdges d).card := by
  have : undirectedEdges (d.image (Prod.map (fun v : V => v * k) fun v : V => v * k)) =
      (undirectedEdges d).image (Finset.image fun v : V => v * k) := by
    unfold undirectedEdges
    rw [Finset.image_image, Finset.image_image]
    congr 1
    funext e
    simp [Finset.image_insert]
  rw [this]
  exact Finset.card_image_of_injective _ (Finset.image_injective (mul_injective hk))

theorem vecSum_scaled (l : List V) (c : ℝ) : vecSum (l.map fun v : V => v * c) = vecSum l * c := by
  rw [vecSum_eq, vecSum_eq]
  simp only [List.map_map]
  have : ∀ f : V → ℝ, (∀ v : V, f (v * c) = f v * c) → (l.map (f ∘ fun v : V => v * c)).sum = (l.map f).sum * c := by
    intro f hf
    rw [← List.sum_map_mul_right]
    exact congrArg List.sum (List.map_congr_left fun v _ => hf v)
  ext
  · exact this Vec.x fun _ => rfl
  · exact this Vec.y fun _ => rfl
  · exact this Vec.z fun _ => rfl

theorem areaTest_scaled (hk : 0 < k) (eps : ℝ) {m m' : StlMesh} (h : StlScaled k m m') : areaTest eps m' = areaTest eps m := by
  have hkk : 0 < k * k := mul_pos hk hk
  have t : ∀ a b : ℝ, (|a * (k * k)| ≤ b * (k * k) * eps) ↔ (|a| ≤ b * eps) := by
    intro a b
    rw [_root_.abs_mul, abs_of_pos hkk]
    constructor <;> intro h <;> nlinarith
  have e : ∀ f : V → ℝ, (∀ v : V, f (v * (k * k)) = f v * (k * k)) →
      (m'.normals.map f).sum = (m.normals.map f).sum * (k * k) := by
    intro f hf
    rw [h.normals, List.map_map, ← List.sum_map_mul_right]
    exact congrArg List.sum (List.map_congr_left fun v _ => hf v)
  have ha : ∀ x : ℝ, |x * (k * k)| = |x| * (k * k) := fun x => by rw [_root_.abs_mul, abs_of_pos hkk]
  rw [Bool.eq_iff_iff, C45_area_test, C45_area_test, e Vec.x fun _ => rfl, e Vec.y fun _ => rfl, e Vec.z fun _ => rfl,
    e (fun n => |n.x|) fun v => ha v.x, e (fun n => |n.y|) fun v => ha v.y, e (fun n => |n.z|) fun v => ha v.z, t, t, t]

/-- C126, checks: `stl_check` gives the same answer in every unit. -/
theorem C126_check (hk : 0 < k) (eps : ℝ) (m m' : StlMesh) (h : StlScaled k m m') (pa ml : Bool) :
    stlCheck eps m' pa ml = stlCheck eps m pa ml := by
  unfold stlCheck
  have hl : m'.tris.length = m.tris.length := by rw [show m'.tris = _ from h.tris]; simp [mapVerts]
  have hc : (directedEdges m').card = (directedEdges m).card := by
    classical
    rw [directedEdges_scaled hk h]
    exact Finset.card_image_of_injective _ ((mul_injective hk).prodMap (mul_injective hk))
  have hu : (undirectedEdges (directedEdges m')).card = (undirectedEdges (directedEdges m)).card := by
    rw [directedEdges_scaled hk h]
    exact undirected_scaled hk _
  cases ml
  · rfl
  · simp only [areaTest_scaled hk eps h, hl, if_true, pure_eq, ok_bind, hc, hu]

/-- C126, volume: the volume enclosed by the mesh is multiplied by `k³`. -/
theorem C126_volume (m m' : StlMesh) (h : StlScaled k m m') : signedVolume m'.tris = signedVolume m.tris * k ^ 3 := signedVolume_scaled h.tris

/-! ## Where the unit matters -/

/-- C126 is violated by the tests of joints: a section whose ends are `1e-12` apart is accepted, the same section in any smaller unit is refused. -/
theorem C126_joint_violated (hk : 1 < k) (res : ℕ) : ∃ S T c, SectionsScaled k S T ∧ Swept.init S false (.int res) none = .ok c ∧
    Swept.init T false (.int res) none = .error .exc := by
  have hl : ∀ p q : V, PathScaled k (Line p q) (Line (p * k) (q * k)) := fun p q => line_scaled (by linarith) rfl rfl
  refine ⟨[[Line ⟨0, 0, 0⟩ ⟨0, 1, 0⟩, Line ⟨0, 1, 0⟩ ⟨0, 0, 1e-12⟩]],
    [[Line ((⟨0, 0, 0⟩ : V) * k) ((⟨0, 1, 0⟩ : V) * k), Line ((⟨0, 1, 0⟩ : V) * k) ((⟨0, 0, 1e-12⟩ : V) * k)]],
    Swept.comp [[Line ⟨0, 0, 0⟩ ⟨0, 1, 0⟩, Line ⟨0, 1, 0⟩ ⟨0, 0, 1e-12⟩]] 2 false (.int res) none, .cons (.cons (hl _ _) (.cons (hl _ _) .nil)) .nil, ?_, ?_⟩
  · have : ¬ ((1e-12 : ℝ) < |(1e-12 : ℝ)|) := by rw [abs_of_pos (by norm_num)]; exact lt_irrefl _
    have z : ¬ ((1e-12 : ℝ) < 0) := by norm_num
    simp [Swept.init, SweptPatch.getIdx, Swept.checkOptions, Swept.checkSection, Swept.checkJoint, Swept.checkRes, List.range_succ, Line,
      lineAt_zero, lineAt_one, bind, Except.bind, pure, Except.pure, this, z]
  · have : (1e-12 : ℝ) < |(1e-12 : ℝ)| * |k| := by rw [abs_of_pos (by norm_num), abs_of_pos (by linarith)]; linarith
    have z : ¬ ((1e-12 : ℝ) < 0) := by norm_num
    simp [Swept.init, SweptPatch.getIdx, Swept.checkOptions, Swept.checkSection, Swept.checkJoint, Swept.checkRes, List.range_succ, Line,
      lineAt_zero, lineAt_one, bind, Except.bind, pure, Except.pure, this, z, throw, throwThe, MonadExceptOf.throw]

/-- C126 is violated by the default width of leading edges, which is a fixed number in every unit: with it no patch of a leading edge, built on
curves that are the same in both units, is the same in both units. -/
theorem C126_width_violated (hk : 0 < k) (hk1 : k ≠ 1) (ptan : ℝ → ℝ) (hT : TanLike ptan) (hpole : 0 < ptan (Real.pi / 2))
    (mean guide mean' guide' : PathObj) (hmean : PathScaled k mean mean') (hguide : PathScaled k guide guide') (t0 t1 : ℝ) (ht0 : 0 ≤ t0)
    (ht1 : t0 ≤ t1) (ht : t1 ≤ 1) (hm : ∀ t, ∃ m, mean.call t = .ok m) (hg : ∀ t, ∃ g, guide.call t = .ok g)
    (hth : ∀ t m g, mean.call t = .ok m → guide.call t = .ok g → m.z ≠ g.z) (τ : ℝ) (hτ : 0 ≤ τ) (hτ1 : τ ≤ 1) :
    ∃ q q', MeanLeadingEdgePatchFunction ptan mean guide leadingEdgeWidth t0 t1 "bot" τ 0 = .ok q ∧
      MeanLeadingEdgePatchFunction ptan mean' guide' leadingEdgeWidth t0 t1 "bot" τ 0 = .ok q' ∧ ¬ PointScaled k q q' := by
  obtain ⟨m, hm0⟩ := hm ((1 - τ) * t1 + τ * t0)
  obtain ⟨g, hg0⟩ := hg ((1 - τ) * t1 + τ * t0)
  obtain ⟨m', hm', rfl⟩ := hmean.call _ m hm0
  obtain ⟨g', hg', rfl⟩ := hguide.call _ g hg0
  have hne := hth _ _ _ hm0 hg0
  have hne' : (m * k).z ≠ (g * k).z := fun h => hne (mul_right_cancel₀ hk.ne' h)
  set t := (1 - τ) * t1 + τ * t0 with htd
  have h0 : 0 ≤ t := by rw [htd]; nlinarith
  have h1 : t ≤ 1 := by rw [htd]; nlinarith
  have hw0 : 0 < 0.01 + 0.18 * t * (1 - t) := by nlinarith
  have hm2 : ∀ t, ∃ m, mean'.call t = .ok m := fun t => by
    obtain ⟨m, h⟩ := hm t
    obtain ⟨m', h', -⟩ := hmean.call t m h
    exact ⟨m', h'⟩
  have hg2 : ∀ t, ∃ m, guide'.call t = .ok m := fun t => by
    obtain ⟨m, h⟩ := hg t
    obtain ⟨m', h', -⟩ := hguide.call t m h
    exact ⟨m', h'⟩
  have hth2 : ∀ t m g, mean'.call t = .ok m → guide'.call t = .ok g → m.z ≠ g.z := by
    intro t a b ha hb
    obtain ⟨m, h⟩ := hm t
    obtain ⟨g, h2⟩ := hg t
    obtain ⟨m', h', rfl⟩ := hmean.call t m h
    obtain ⟨g', h2', rfl⟩ := hguide.call t g h2
    rw [h'] at ha
    rw [h2'] at hb
    cases ha
    cases hb
    exact fun e => hth t m g h h2 (mul_right_cancel₀ hk.ne' e)
  obtain ⟨q, hq⟩ := C34_mean_defined ptan mean guide leadingEdgeWidth t0 t1 τ 0 "bot" (.inr rfl) hm hg
    (fun t => ⟨_, leadingEdgeWidth_eq t⟩) hth
  obtain ⟨q', hq'⟩ := C34_mean_defined ptan mean' guide' leadingEdgeWidth t0 t1 τ 0 "bot" (.inr rfl) hm2 hg2
    (fun t => ⟨_, leadingEdgeWidth_eq t⟩) hth2
  refine ⟨q, q', hq, hq', ?_⟩
  rintro rfl
  obtain ⟨-, e⟩ := (C34_mean_attaches ptan hT hpole mean guide leadingEdgeWidth t0 t1 τ m g _ hm0 hg0 (leadingEdgeWidth_eq _) hw0 hne).1 q hq
  obtain ⟨-, e'⟩ := (C34_mean_attaches ptan hT hpole mean' guide' leadingEdgeWidth t0 t1 τ _ _ _ hm' hg' (leadingEdgeWidth_eq _) hw0 hne').1 _ hq'
  simp only [Vec.mul_x, Vec.mul_y, ← htd] at e e'
  set w := 0.01 + 0.18 * t * (1 - t)
  have : w ^ 2 * k ^ 2 = w ^ 2 := by linear_combination e' - k ^ 2 * e
  have hk2 : k ^ 2 = 1 := mul_left_cancel₀ (pow_ne_zero 2 hw0.ne') (by rw [this, mul_one])
  exact hk1 (by nlinarith)

/-- Curves to which the last theorem applies: those of a straight leading edge of a wing of constant thickness. -/
example : PathScaled 1000 (Line ⟨0, 1, 0⟩ ⟨2, 0, 0⟩) (Line ⟨0, 1000, 0⟩ ⟨2000, 0, 0⟩) ∧
    PathScaled 1000 (Line ⟨0, 1, 0.1⟩ ⟨2, 0, 0.1⟩) (Line ⟨0, 1000, 100⟩ ⟨2000, 0, 100⟩) ∧
    ∀ t m g, (Line ⟨0, 1, 0⟩ ⟨2, 0, 0⟩).call t = .ok m → (Line ⟨0, 1, 0.1⟩ ⟨2, 0, 0.1⟩).call t = .ok g → m.z ≠ g.z := by
  have h : (0 : ℝ) < 1000 := by norm_num
  refine ⟨line_scaled h (scaled_mk ?_ ?_ ?_) (scaled_mk ?_ ?_ ?_), line_scaled h (scaled_mk ?_ ?_ ?_) (scaled_mk ?_ ?_ ?_), ?_⟩
  on_goal 13 =>
    intro t m g hm hg
    cases hm
    cases hg
    simp [lineAt]
    intro h
    nlinarith
  all_goals norm_num

/-! ## Examples -/

/-- numpy-stl with the area of the triangles. -/
noncomputable def Spec.areaStl : Lib := { numpyStl with area := fun m => (m.tris.map fun t => t.normal.abs).sum / 2 }

theorem areaStl_ok : NumpyStl areaStl := ⟨numpyStl_ok.volume, numpyStl_ok.mass, numpyStl_ok.cog⟩

theorem sum_scaled (f : Tri ℝ → ℝ) (c : ℝ) (hf : ∀ t : Tri ℝ, f ⟨t.v0 * k, t.v1 * k, t.v2 * k⟩ = f t * c) (m : TriMesh ℝ) :
    ((mapVerts (fun v : V => v * k) m).map f).sum = (m.map f).sum * c := by
  rw [← List.sum_map_mul_right, mapVerts, List.map_map]
  exact congrArg List.sum (List.map_congr_left fun t _ => hf t)

theorem areaStl_scaled (hk : 0 < k) : LibScaled k areaStl where
  massProps := by
    intro m m' ρ h
    have e : stlVolume m'.tris = stlVolume m.tris * k ^ 3 := by
      unfold stlVolume
      rw [show m'.tris = _ from h.tris, sum_scaled _ (k ^ 3) fun t => by simp [triArea2]; ring]
      ring
    have e2 : stlMoment m'.tris = stlMoment m.tris * k ^ 4 := by
      unfold stlMoment
      rw [show m'.tris = _ from h.tris, sum_scaled _ (k ^ 4) fun t => by simp [triArea2, pairs]; ring,
        sum_scaled _ (k ^ 4) fun t => by simp [triArea2, pairs]; ring, sum_scaled _ (k ^ 4) fun t => by simp [triArea2, pairs]; ring]
      ext <;> simp <;> ring
    refine follows_ok ⟨e, ?_, ?_, fun _ _ => by simp [areaStl, numpyStl]⟩
    · simp only [e]; ring
    · simp only [e, e2, PointScaled]
      by_cases hz : stlVolume m.tris = 0
      · ext <;> simp [hz]
      · ext <;> simp <;> field_simp
  area := by
    intro m m' h
    simp only [areaStl]
    rw [show m'.tris = _ from h.tris, sum_scaled _ (k ^ 2) fun t => ?_]
    · ring
    · rw [normal_scaled, show k ^ 2 = k * k by ring]
      exact scaled_abs (mul_pos hk hk) rfl

/-- A nose, a body and a ball, described in metres and in millimetres, as a vehicle that is moved as a whole. -/
example : StateScaled 1000
    ⟨fun i => if i = 0 then RevolvedComponent (Line ⟨0, 0, 0⟩ ⟨2, 0.5, 0⟩) 5 (some "nose") else Sphere 0.5 ⟨3, 0, 0⟩ 6 (some "ball"),
      { name := "v", components := [0, 1], named := [("nose", 0), ("ball", 1)], transformations := [.translate (.vector ⟨1, 0, 0⟩)] }⟩
    ⟨fun i => if i = 0 then RevolvedComponent (Line ⟨0, 0, 0⟩ ⟨2000, 500, 0⟩) 5 (some "nose") else Sphere 500 ⟨3000, 0, 0⟩ 6 (some "ball"),
      { name := "v", components := [0, 1], named := [("nose", 0), ("ball", 1)], transformations := [.translate (.vector ⟨1000, 0, 0⟩)] }⟩ where
  heap := by
    intro i
    simp only
    split
    · exact revolvedComponent_scaled (line_scaled (by norm_num) (scaled_mk (by norm_num) (by norm_num) (by norm_num))
        (scaled_mk (by norm_num) (by norm_num) (by norm_num))) _ _
    · exact new_scaled _ (.into fun _ => faces_scaled fun f => spherePatch_scaled (by norm_num)
        (scaled_mk (by norm_num) (by norm_num) (by norm_num)) f) _ _
  veh := ⟨rfl, rfl, rfl, rfl, .none, .none, rfl, rfl, .cons (.vector (scaled_mk (by norm_num) (by norm_num) (by norm_num))) .nil, rfl⟩

/-- A wing with an elliptic leading edge of given width, described in metres and in kilometres. -/
example : WingScaled (1 / 1000) { deltaWing "custom" (some 0.5) none with LE_wf := some fun r => .ok (0.01 + 0.1 * r) }
    { deltaWing "custom" (some 0.5) none with
      A1 := ⟨1 / 1000, 0, 0⟩
      TT := ⟨2 / 1000, 0, 0⟩
      B0 := ⟨0, 1 / 1000, 0⟩
      line := Line ⟨0, 1 / 1000, 0⟩ ⟨2 / 1000, 0, 0⟩
      top_tf := uniformThickness (0.1 / 1000) "top"
      bot_tf := uniformThickness (0.1 / 1000) "bot"
      LE_wf := some fun r => .ok (0.01 / 1000 + 0.1 / 1000 * r)
      flap_length := 0.5 / 1000 } where
  A0 := scaled_mk (by simp) (by simp) (by simp)
  A1 := scaled_mk (by norm_num) (by norm_num) (by norm_num)
  TT := scaled_mk (by norm_num) (by norm_num) (by norm_num)
  B0 := scaled_mk (by norm_num) (by norm_num) (by norm_num)
  line := line_scaled (by norm_num) (scaled_mk (by norm_num) (by norm_num) (by norm_num)) (scaled_mk (by norm_num) (by norm_num) (by norm_num))
  lineType := rfl
  t_B1 := rfl
  t_B2 := rfl
  top_tf := fun x y z => follows_ok (scaled_mk (by norm_num) (by norm_num) (by norm_num))
  bot_tf := fun x y z => follows_ok (scaled_mk (by norm_num) (by norm_num) (by rw [if_neg (by decide)]; norm_num))
  LE_wf := .inl ⟨_, _, rfl, rfl, fun r => follows_ok (by rw [LengthScaled]; ring)⟩
  LE_type := rfl
  tail_option := rfl
  flap_length := by simp [LengthScaled, deltaWing]; norm_num
  flap_angle := rfl
  close_wing := rfl

end
end HV
