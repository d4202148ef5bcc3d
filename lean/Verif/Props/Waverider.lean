import Verif.Lemmas.WaveriderParts
import Verif.Props.Hifire4

/-!
# C109: the parametric waverider
-/

namespace HV
open Spec Veh

namespace Spec

/-- The keyword arguments of the generator mean these dimensions. -/
structure WaveriderArgs (kwargs : Dict String ℝ) (p : Waverider.Params) : Prop where
  keys : kwargs.keys.Nodup
  zero_offset : given kwargs "zero_offset" 1 p.zero_offset
  curve_zero : given kwargs "curve_zero" 5 p.curve_zero
  length : given kwargs "length" 1 p.length
  width : given kwargs "width" 0.35 p.width
  le_width : given kwargs "le_width" 0.003 p.le_width
  LE_thickness : given kwargs "LE_thickness" 0.003 p.LE_thickness
  aoa : given kwargs "aoa" 3 p.aoa
  f1x : given kwargs "f1x" (0.25 * 1) p.f1x
  f1y : given kwargs "f1y" 0.075 p.f1y
  f2y : given kwargs "f2y" 0.075 p.f2y
  p2x : given kwargs "p2x" (1 * 1 / 3) p.p2x
  p2y : given kwargs "p2y" (2 * 0.35 / 2 / 3) p.p2y
  p3x : given kwargs "p3x" (2.75 * 1 / 3) p.p3x
  p3y : given kwargs "p3y" (1.5 * 0.35 / 2 / 3) p.p3y
  u1y : given kwargs "u1y" 0.1 p.u1y
  u2x : given kwargs "u2x" (0.35 / 2 / 3) p.u2x
  u3x : given kwargs "u3x" (2 * 0.35 / 2 / 3) p.u3x
  u3y : given kwargs "u3y" (0.1 / 10) p.u3y
  flap_angle : given kwargs "flap_angle" 0 p.flap_angle
  flap_height : given kwargs "flap_height" 0.1 p.flap_height
  a0_t : given kwargs "a0_t" 0.065 p.a0_t
  tt_t : given kwargs "tt_t" 0.35 p.tt_t
  w1x : given kwargs "w1x" 0.1 p.w1x
  w1y : given kwargs "w1y" (0 + 1) p.w1y
  w2x : given kwargs "w2x" 0.1 p.w2x
  w2y : given kwargs "w2y" (0 + 1) p.w2y
  x_curve_mult : given kwargs "x_curve_mult" (0.001 + 5) p.x_curve_mult
  y_curve_mult : given kwargs "y_curve_mult" (0.001 + 5) p.y_curve_mult

end Spec

theorem waverider_params (kwargs : Dict String ℝ) (p : Waverider.Params) (ha : WaveriderArgs kwargs p) :
    Waverider.Params.of (Generator.init Waverider.defaults kwargs) = .ok p := by
  unfold Waverider.Params.of
  have k := fun (s : String) (d v : ℝ) (h : given kwargs s d v) (e : Waverider.defaults.get? s = some d) =>
    given_get' (dflts := Waverider.defaults) ha.keys h e
  rw [k _ _ _ ha.zero_offset rfl, ok_bind, k _ _ _ ha.curve_zero rfl, ok_bind, k _ _ _ ha.length rfl, ok_bind, k _ _ _ ha.width rfl, ok_bind,
    k _ _ _ ha.le_width rfl, ok_bind, k _ _ _ ha.LE_thickness rfl, ok_bind, k _ _ _ ha.aoa rfl, ok_bind, k _ _ _ ha.f1x rfl, ok_bind,
    k _ _ _ ha.f1y rfl, ok_bind, k _ _ _ ha.f2y rfl, ok_bind, k _ _ _ ha.p2x rfl, ok_bind, k _ _ _ ha.p2y rfl, ok_bind,
    k _ _ _ ha.p3x rfl, ok_bind, k _ _ _ ha.p3y rfl, ok_bind, k _ _ _ ha.u1y rfl, ok_bind, k _ _ _ ha.u2x rfl, ok_bind,
    k _ _ _ ha.u3x rfl, ok_bind, k _ _ _ ha.u3y rfl, ok_bind, k _ _ _ ha.flap_angle rfl, ok_bind, k _ _ _ ha.flap_height rfl, ok_bind,
    k _ _ _ ha.a0_t rfl, ok_bind, k _ _ _ ha.tt_t rfl, ok_bind, k _ _ _ ha.w1x rfl, ok_bind, k _ _ _ ha.w1y rfl, ok_bind,
    k _ _ _ ha.w2x rfl, ok_bind, k _ _ _ ha.w2y rfl, ok_bind, k _ _ _ ha.x_curve_mult rfl, ok_bind, k _ _ _ ha.y_curve_mult rfl, ok_bind]
  rfl

open Waverider in
theorem waverider_instance (ptan : ℝ → ℝ) (h : Heap) (ids : ℕ → ℕ) (hi : Function.Injective ids) (nf nw nt : ℕ) (kwargs : Dict String ℝ)
    (p : Waverider.Params) (ha : WaveriderArgs kwargs p) (line : PathObj) (w : Wing.State) (a : Wing.Args) (f : Wing.State)
    (el : edge bisect01 p = .ok line) (ew : Wing.init (rounded bisect01) (wingArgs bisect01 line p) = .ok w) (ea : flapArgs line p = .ok a)
    (ef : Wing.init (rounded bisect01) a = .ok f) :
    ∃ st, Waverider.instanceOf bisect01 ptan h ids nf nw nt kwargs = .ok st ∧
      st.veh.components = (List.range 5).map ids ∧
      st.veh.named = ["fuselage", "wings", "right_flap", "left_flap", "fin"].zip ((List.range 5).map ids) ∧
      st.veh.angleOffset = 0 ∧ st.veh.transformations = CART3D ++ [.rotate (-adjustAoa p p.aoa) "z"] ∧ st.veh.analyseOn = none ∧
      st.heap (ids 0) = { (RevolvedComponent (fuseLine p) nf (some "fuselage")).addClusteringOptions (some cf) none with
        modifier := some underside, curvatures := some (curvatures p) } ∧
      st.heap (ids 1) = bentWing ptan w nw (some "wings") (some "y") true (curvatures p) ∧
      st.heap (ids 2) = bentWing ptan f nw (some "right_flap") none true (curvatures p) ∧
      st.heap (ids 3) = bentWing ptan f nw (some "left_flap") (some "y") false (curvatures p) ∧
      st.heap (ids 4) = bentFin (rounded bisect01) ptan finArgs nt (some "fin") (curvatures p) := by
  unfold Waverider.instanceOf Waverider.createInstance
  rw [waverider_params kwargs p ha, ok_bind, el, ok_bind, ew, ok_bind, ea, ok_bind, ef, ok_bind]
  simp only
  set H : Heap := ((h.upd (ids 0) (RevolvedComponent (fuseLine p) nf)).upd (ids 1) (Wing.comp ptan w nw)).upd (ids 2) (Wing.comp ptan f nw) with hH
  have f0 : H (ids 0) = RevolvedComponent (fuseLine p) nf := by simp only [hH, Heap.upd, hi.eq_iff]; rfl
  have f1 : H (ids 1) = Wing.comp ptan w nw := by simp only [hH, Heap.upd, hi.eq_iff]; rfl
  have f2 : H (ids 2) = Wing.comp ptan f nw := by simp only [hH, Heap.upd, hi.eq_iff]; rfl
  obtain ⟨st, b1, b2, b3, b4⟩ := addAll_spec ⟨H, ({} : Veh).configure (some "waverider") 1⟩ (firstParts p ids)
    (by simp [firstParts, hi.eq_iff])
    (by
      intro e he
      simp only [firstParts, List.mem_cons, List.not_mem_nil, or_false] at he
      rcases he with rfl | rfl | rfl
      · simp only [f0, RevolvedComponent, Veh.allowable]; decide
      · simp only [f1, Wing.comp, Veh.allowable]; decide
      · simp only [f2, Wing.comp, Veh.allowable]; decide)
  obtain ⟨cs, en, r1⟩ := recorded H (firstParts p ids) ["fuselage", "wings", "right_flap"] rfl (by decide)
    (({} : Veh).configure (some "waverider") 1) (by intro s _; simp [Veh.configure, Dict.keys])
  rw [r1] at b2
  have k0 : st.heap (ids 0) = { (RevolvedComponent (fuseLine p) nf (some "fuselage")).addClusteringOptions (some cf) none with
        modifier := some underside, curvatures := some (curvatures p) } := by
    rw [b3 (ids 0, { name := some "fuselage", clustering := some (some cf, none), curvatures := some (curvatures p), modifier := some underside }) (by simp [firstParts])]
    simp only [f0]; rfl
  have k1 : st.heap (ids 1) = bentWing ptan w nw (some "wings") (some "y") true (curvatures p) := by
    rw [b3 (ids 1, { name := some "wings", reflection_axis := some "y", curvatures := some (curvatures p) }) (by simp [firstParts])]
    simp only [f1]; rfl
  have k2 : st.heap (ids 2) = bentWing ptan f nw (some "right_flap") none true (curvatures p) := by
    rw [b3 (ids 2, { name := some "right_flap", curvatures := some (curvatures p) }) (by simp [firstParts])]
    simp only [f2]; rfl
  rw [b1, ok_bind]
  set G : Heap := (st.heap.upd (ids 3) (st.heap (ids 2))).upd (ids 4) (Fin.comp (rounded bisect01) ptan finArgs nt) with hG
  have g3 : G (ids 3) = bentWing ptan f nw (some "right_flap") none true (curvatures p) := by
    simp only [hG, Heap.upd, hi.eq_iff]; exact k2
  have g4 : G (ids 4) = Fin.comp (rounded bisect01) ptan finArgs nt := by simp only [hG, Heap.upd, hi.eq_iff]; rfl
  have gl : ∀ i < 3, G (ids i) = st.heap (ids i) := by
    intro i h3
    rw [hG, upd_ne _ _ _ _ (by rw [Ne, hi.eq_iff]; omega), upd_ne _ _ _ _ (by rw [Ne, hi.eq_iff]; omega)]
  obtain ⟨st', c1, c2, c3, c4⟩ := addAll_spec ⟨G, st.veh⟩ (lastParts p ids) (by simp [lastParts, hi.eq_iff])
    (by
      intro e he
      simp only [lastParts, List.mem_cons, List.not_mem_nil, or_false] at he
      rcases he with rfl | rfl
      · simp only [g3, bentWing, Wing.comp, Veh.allowable]; decide
      · simp only [g4, Fin.comp, Veh.allowable]; decide)
  obtain ⟨cs', en', r2⟩ := recorded G (lastParts p ids) ["left_flap", "fin"] rfl (by decide) st.veh (by
    rw [b2]
    intro s hs
    simp only [Veh.configure, List.nil_append, firstParts, List.map_cons, List.map_nil, List.zip_cons_cons, List.zip_nil_left, Dict.keys]
    revert s; decide)
  rw [r2] at c2
  have j3 : st'.heap (ids 3) = bentWing ptan f nw (some "left_flap") (some "y") false (curvatures p) := by
    rw [c3 (ids 3, { name := some "left_flap", reflection_axis := some "y", append_reflection := false, curvatures := some (curvatures p) }) (by simp [lastParts])]
    simp only [g3, b2]; rfl
  have j4 : st'.heap (ids 4) = bentFin (rounded bisect01) ptan finArgs nt (some "fin") (curvatures p) := by
    rw [c3 (ids 4, { name := some "fin", curvatures := some (curvatures p) }) (by simp [lastParts])]
    simp only [g4, b2]; rfl
  have jl : ∀ i < 3, st'.heap (ids i) = st.heap (ids i) := by
    intro i h3
    rw [c4 (ids i) (by simp only [lastParts, List.map_cons, List.map_nil, List.mem_cons, List.not_mem_nil, hi.eq_iff, or_false]; omega)]
    exact gl i h3
  rw [c1, ok_bind]
  refine ⟨_, rfl, ?_⟩
  simp only [c2, b2]
  exact ⟨rfl, rfl, rfl, rfl, rfl, (jl 0 (by norm_num)).trans k0, (jl 1 (by norm_num)).trans k1, (jl 2 (by norm_num)).trans k2, j3, j4⟩

/-- What is known of the components of a generated waverider. -/
structure Waverider.Meshes (p : Waverider.Params) (ids : ℕ → ℕ) (st' : VState) : Prop where
  fuselage : ∃ M c', (st'.heap (ids 0)).mesh = (.ok M, c') ∧ Closed M.tris
  wings : ∃ M c', (st'.heap (ids 1)).mesh = (.ok M, c') ∧ GapFree (waveriderFactor p * 1e-12) M.tris
  flaps : ∀ i, i = 2 ∨ i = 3 → ∃ M c', (st'.heap (ids i)).mesh = (.ok M, c') ∧ ClosedUpTo (waveriderFactor p * 1e-12) M.tris
  fin : ∃ M c', (st'.heap (ids 4)).mesh = (.ok M, c') ∧ ClosedUpTo (waveriderFactor p * 2e-7) M.tris

open Waverider in
/-- The vehicle of the waverider generator and its meshes. -/
theorem waverider_meshes (ptan : ℝ → ℝ) (hT : FloatTan ptan) (h : Heap) (ids : ℕ → ℕ) (hi : Function.Injective ids) (nf nw nt : ℕ)
    (hf : 1 ≤ nf) (hw : 1 ≤ nw) (ht : 1 ≤ nt) (kwargs : Dict String ℝ) (p : Waverider.Params) (ha : WaveriderArgs kwargs p) (hp : WaveriderOk p) :
    ∃ st, Waverider.instanceOf bisect01 ptan h ids nf nw nt kwargs = .ok st ∧
      st.veh.components = (List.range 5).map ids ∧
      st.veh.named = [("fuselage", ids 0), ("wings", ids 1), ("right_flap", ids 2), ("left_flap", ids 3), ("fin", ids 4)] ∧
      st.veh.angleOffset = 0 ∧ st.veh.transformations = CART3D ++ [.rotate (-adjustAoa p p.aoa) "z"] ∧ st.veh.analyseOn = none ∧
      st.heap (ids 0) = { (RevolvedComponent (fuseLine p) nf (some "fuselage")).addClusteringOptions (some cf) none with
        modifier := some underside, curvatures := some (curvatures p) } ∧
      Unshared st.heap st.veh.components ∧
      ∃ mf : ℕ → TriMesh ℝ, (∀ n, 1 ≤ n → ClosedUpTo (waveriderFactor p * 1e-12) (mf n)) ∧
      ∀ st0 lib depth, Rescaled st st0 → ∃ A st' n2 n3, InTurn (CART3D ++ [.rotate (-adjustAoa p p.aoa) "z"]) A ∧ IsMotion A ∧
        generate lib depth st0 = (.ok (), st') ∧
        (∃ M c', (st'.heap (ids 0)).mesh = (.ok M, c') ∧ Closed M.tris) ∧
        (∃ M c', (st'.heap (ids 1)).mesh = (.ok M, c') ∧ GapFree (waveriderFactor p * 1e-12) M.tris) ∧
        (1 ≤ n2 ∧ (st0.heap (ids 2)).stl_resolution = .int n2 ∧ MeshIs (st'.heap (ids 2)) (mapVerts A (mf n2))) ∧
        (1 ≤ n3 ∧ (st0.heap (ids 3)).stl_resolution = .int n3 ∧ MeshIs (st'.heap (ids 3)) (mapVerts A (mapVerts (mirrorV 1) (mf n3)))) ∧
        (∃ M c', (st'.heap (ids 4)).mesh = (.ok M, c') ∧ ClosedUpTo (waveriderFactor p * 2e-7) M.tris) ∧
        ((st0.heap (ids 2)).stl_resolution = (st.heap (ids 2)).stl_resolution → n2 = nw) ∧
        ((st0.heap (ids 3)).stl_resolution = (st.heap (ids 3)).stl_resolution → n3 = nw) := by
  obtain ⟨y2, y3, el, l3, l32, l2⟩ := edge_ok hp
  obtain ⟨w, ew, mw⟩ := wings_mesh hp l3 l32 l2 hT
  obtain ⟨a, f, ea, ef, mf'⟩ := flaps_mesh hp l3 l32 l2 hT
  have mf'' : ∀ n, ∃ m, 1 ≤ n → ClosedUpTo (waveriderFactor p * 1e-12) m ∧ ∀ (name : Option String) (H : Heap) (id : ℕ),
    (H id = bentWing ptan f n name none true (curvatures p) →
      ∃ g c, generatePatches H id = (.ok (), g) ∧ pipeline 0 (g id) = (.ok (), c) ∧ ∃ M c', c.mesh = (.ok M, c') ∧ M.tris = m) ∧
    (H id = bentWing ptan f n name (some "y") false (curvatures p) →
      ∃ g c, generatePatches H id = (.ok (), g) ∧ pipeline 0 (g id) = (.ok (), c) ∧ ∃ M c', c.mesh = (.ok M, c') ∧
        M.tris = mapVerts (mirrorV 1) m) := by
    intro n
    by_cases hn : 1 ≤ n
    · obtain ⟨m, h⟩ := mf' n hn
      exact ⟨m, fun _ => h⟩
    · exact ⟨[], fun h => absurd h hn⟩
  choose mf hmf using mf''
  obtain ⟨st, b1, b2, b3, v1, v2, v3, f0, f1, f2, f3, f4⟩ := waverider_instance ptan h ids hi nf nw nt kwargs p ha _ w a f el ew ea ef
  have ch0 : ∀ k ∈ st.veh.components, (st.heap k).children = [] := by
    intro k hk
    rw [b2] at hk
    simp only [List.range_succ, List.range_zero, List.nil_append, List.cons_append, List.map_cons, List.map_nil, List.mem_cons, List.not_mem_nil,
      or_false] at hk
    rcases hk with rfl | rfl | rfl | rfl | rfl
    · rw [f0]; rfl
    · rw [f1]; rfl
    · rw [f2]; rfl
    · rw [f3]; rfl
    · rw [f4]; rfl
  have un : Unshared st.heap st.veh.components := by
    refine ⟨by rw [b2]; simp [List.range_succ, hi.eq_iff], ?_, ?_⟩
    · intro k _ k' hk'
      rw [ch0 k' hk']; simp
    · intro k hk k' _ _
      rw [ch0 k hk]; simp
  refine ⟨st, b1, b2, by rw [b3]; rfl, v1, v2, v3, f0, un, mf, fun n hn => (hmf n hn).1, fun st0 lib depth hr => ?_⟩
  have hv : st0.veh = st.veh := hr.1
  have hcs : st0.veh.components = [ids 0, ids 1, ids 2, ids 3, ids 4] := by rw [hv, b2]; rfl
  obtain ⟨n0, o0, r0⟩ : ∃ n : ℕ, 1 ≤ n ∧ st0.heap (ids 0) = { (RevolvedComponent (fuseLine p) n (some "fuselage")).addClusteringOptions (some cf) none with
        modifier := some underside, curvatures := some (curvatures p) } := by
    rcases hr.2 (ids 0) with h | ⟨m, hm, h⟩
    · exact ⟨nf, hf, by rw [h, f0]⟩
    · exact ⟨m, hm, by rw [h, f0]; rfl⟩
  have hwing : ∀ k s nm rf ap, st.heap k = bentWing ptan s nw nm rf ap (curvatures p) → ∃ n : ℕ, 1 ≤ n ∧
      st0.heap k = bentWing ptan s n nm rf ap (curvatures p) := by
    intro k s nm rf ap hk
    rcases hr.2 k with h | ⟨m, hm, h⟩
    · exact ⟨nw, hw, h.trans hk⟩
    · exact ⟨m, hm, by rw [h, hk]; rfl⟩
  obtain ⟨n1, o1, r1⟩ := hwing _ _ _ _ _ f1
  obtain ⟨n2, o2, r2⟩ := hwing _ _ _ _ _ f2
  obtain ⟨n3, o3, r3⟩ := hwing _ _ _ _ _ f3
  obtain ⟨n4, o4, r4⟩ : ∃ n : ℕ, 1 ≤ n ∧ st0.heap (ids 4) = bentFin (rounded bisect01) ptan finArgs n (some "fin") (curvatures p) := by
    rcases hr.2 (ids 4) with h | ⟨m, hm, h⟩
    · exact ⟨nt, ht, by rw [h, f4]⟩
    · exact ⟨m, hm, by rw [h, f4]; rfl⟩
  have ch : ∀ k ∈ st0.veh.components, (st0.heap k).children = [] := by
    intro k hk
    rw [hcs] at hk
    simp only [List.mem_cons, List.not_mem_nil, or_false] at hk
    rcases hk with rfl | rfl | rfl | rfl | rfl
    · rw [r0]; rfl
    · rw [r1]; rfl
    · rw [r2]; rfl
    · rw [r3]; rfl
    · rw [r4]; rfl
  have tr : RigidList st0.veh.transformations := by
    rw [hv, v2]
    intro t ht
    simp only [List.mem_append, List.mem_singleton] at ht
    rcases ht with ht | rfl
    · refine ⟨cart3d_plain t ht, ?_⟩
      simp only [CART3D, List.mem_cons, List.not_mem_nil, or_false] at ht
      rcases ht with rfl | rfl
      · exact trivial
      · exact trivial
    · exact ⟨.rotate _ (i := 2) (.inl rfl), trivial⟩
  obtain ⟨A, hI, hA, st', s1, -, s2⟩ := generate_moved lib depth st0 (by rw [hv, v1]) tr (by rw [hv, v3])
    (by
      refine ⟨by rw [hcs]; simp [hi.eq_iff], ?_, ?_⟩
      · intro k _ k' hk'
        rw [ch k' hk']; simp
      · intro k hk k' _ _
        rw [ch k hk]; simp)
    (fun k => if k = ids 0 then n0 else if k = ids 1 then n1 else if k = ids 2 then n2 else if k = ids 3 then n3 else n4)
    (fun k m => (k = ids 0 → Closed m) ∧ (k = ids 1 → GapFree (waveriderFactor p * 1e-12) m) ∧
      (k = ids 2 → m = mf n2) ∧ (k = ids 3 → m = mapVerts (mirrorV 1) (mf n3)) ∧ (k = ids 4 → ClosedUpTo (waveriderFactor p * 2e-7) m))
    (by
      intro k hk
      rw [hcs] at hk
      simp only [List.mem_cons, List.not_mem_nil, or_false] at hk
      rcases hk with rfl | rfl | rfl | rfl | rfl
      · obtain ⟨g, c, g1, g2, M, c', g3, g4⟩ := fuse_mesh hp n0 o0 _ st0.heap (ids 0) r0
        refine ⟨by simpa using o0, ?_, g, c, g1, g2, M, c', g3, by simpa [hi.eq_iff] using g4⟩
        rw [r0]
        refine ⟨by simp; rfl, rfl, rfl, by simp [RevolvedComponent, Comp.addClusteringOptions], rfl⟩
      · obtain ⟨g, c, g1, g2, M, c', g3, g4⟩ := mw n1 o1 _ st0.heap (ids 1) r1
        refine ⟨by simpa [hi.eq_iff] using o1, ?_, g, c, g1, g2, M, c', g3, by simpa [hi.eq_iff] using g4⟩
        rw [r1]
        refine ⟨by simp [hi.eq_iff]; rfl, rfl, rfl, by simp [bentWing, Wing.comp], rfl⟩
      · obtain ⟨g, c, g1, g2, M, c', g3, g4⟩ := ((hmf n2 o2).2 _ st0.heap (ids 2)).1 r2
        refine ⟨by simpa [hi.eq_iff] using o2, ?_, g, c, g1, g2, M, c', g3, by simpa [hi.eq_iff] using g4⟩
        rw [r2]
        refine ⟨by simp [hi.eq_iff]; rfl, rfl, rfl, by simp [bentWing, Wing.comp], rfl⟩
      · obtain ⟨g, c, g1, g2, M, c', g3, g4⟩ := ((hmf n3 o3).2 _ st0.heap (ids 3)).2 r3
        refine ⟨by simpa [hi.eq_iff] using o3, ?_, g, c, g1, g2, M, c', g3, by simpa [hi.eq_iff] using g4⟩
        rw [r3]
        refine ⟨by simp [hi.eq_iff]; rfl, rfl, rfl, by simp [bentWing, Wing.comp], rfl⟩
      · obtain ⟨g, c, g1, g2, M, c', g3, g4⟩ := Waverider.fin_mesh hp hT n4 o4 _ st0.heap (ids 4) r4
        refine ⟨by simpa [hi.eq_iff] using o4, ?_, g, c, g1, g2, M, c', g3, by simpa [hi.eq_iff] using g4⟩
        rw [r4]
        refine ⟨by simp [hi.eq_iff]; rfl, rfl, rfl, by simp [bentFin, Fin.comp], rfl⟩)
  have iso := motion_isometry A hA
  rw [hcs] at s2
  rw [hv, v2] at hI
  refine ⟨A, st', n2, n3, hI, hA, s1, ?_, ?_, ⟨o2, by rw [r2]; rfl, ?_⟩, ⟨o3, by rw [r3]; rfl, ?_⟩, ?_, ?_, ?_⟩
  · obtain ⟨m, q, M, d, e1, e2⟩ := s2 (ids 0) (by simp)
    exact ⟨M, d, e1, by rw [e2]; exact closed_mapVerts _ _ (q.1 rfl)⟩
  · obtain ⟨m, q, M, d, e1, e2⟩ := s2 (ids 1) (by simp)
    exact ⟨M, d, e1, by rw [e2]; exact gapFree_isometry A iso (q.2.1 rfl)⟩
  · obtain ⟨m, q, e⟩ := s2 (ids 2) (by simp)
    rw [← q.2.2.1 rfl]; exact e
  · obtain ⟨m, q, e⟩ := s2 (ids 3) (by simp)
    rw [← q.2.2.2.1 rfl]; exact e
  · obtain ⟨m, q, M, d, e1, e2⟩ := s2 (ids 4) (by simp)
    exact ⟨M, d, e1, by rw [e2]; exact closedUpTo_isometry A iso (q.2.2.2.2 rfl)⟩
  · rw [r2, f2]
    intro e
    have e' : Reso.int n2 = Reso.int nw := e
    simpa using e'
  · rw [r3, f3]
    intro e
    have e' : Reso.int n3 = Reso.int nw := e
    simpa using e'

/-- C109 for the waverider: for all dimensions within `WaveriderOk`, all curvature multipliers of moderate factor and all angles, the generator
returns a vehicle of five named parts; at every mesh resolution it generates although the thickness of the wing is found by bisection; the mesh of
the fuselage, whose underside is flattened and which is then bent and moved, is closed, and those of the bent wings, flaps and fin have no gaps. -/
theorem C109_waverider (ptan : ℝ → ℝ) (hT : FloatTan ptan) (h : Heap) (ids : ℕ → ℕ) (hi : Function.Injective ids) (nf nw nt : ℕ)
    (hf : 1 ≤ nf) (hw : 1 ≤ nw) (ht : 1 ≤ nt) (kwargs : Dict String ℝ) (p : Waverider.Params) (ha : WaveriderArgs kwargs p) (hp : WaveriderOk p) :
    ∃ st, Waverider.instanceOf bisect01 ptan h ids nf nw nt kwargs = .ok st ∧
      st.veh.named = [("fuselage", ids 0), ("wings", ids 1), ("right_flap", ids 2), ("left_flap", ids 3), ("fin", ids 4)] ∧
      ∀ st0 lib depth, Rescaled st st0 → ∃ st', generate lib depth st0 = (.ok (), st') ∧ Waverider.Meshes p ids st' := by
  obtain ⟨st, b1, -, b2, -, -, -, -, -, mf, c, b3⟩ := waverider_meshes ptan hT h ids hi nf nw nt hf hw ht kwargs p ha hp
  refine ⟨st, b1, b2, fun st0 lib depth hr => ?_⟩
  obtain ⟨A, st', n2, n3, -, hA, g, m0, m1, ⟨o2, -, M2, d2, e2, k2⟩, ⟨o3, -, M3, d3, e3, k3⟩, m4, -, -⟩ := b3 st0 lib depth hr
  have iso := motion_isometry A hA
  refine ⟨st', g, m0, m1, ?_, m4⟩
  rintro i (rfl | rfl)
  · exact ⟨M2, d2, e2, by rw [k2]; exact closedUpTo_isometry A iso (c n2 o2)⟩
  · exact ⟨M3, d3, e3, by rw [k3]; exact closedUpTo_isometry A iso (closedUpTo_isometry _ (mirrorV_isometry 1) (c n3 o3))⟩

/-- The waverider without arguments. -/
noncomputable def waveriderDefault : Waverider.Params :=
  ⟨1, 5, 1, 0.35, 0.003, 0.003, 3, 0.25 * 1, 0.075, 0.075, 1 * 1 / 3, 2 * 0.35 / 2 / 3, 2.75 * 1 / 3, 1.5 * 0.35 / 2 / 3, 0.1, 0.35 / 2 / 3,
    2 * 0.35 / 2 / 3, 0.1 / 10, 0, 0.1, 0.065, 0.35, 0.1, 0 + 1, 0.1, 0 + 1, 0.001 + 5, 0.001 + 5⟩

theorem waveriderDefault_ok : WaveriderArgs [] waveriderDefault ∧ WaveriderOk waveriderDefault := by
  constructor
  · constructor <;> first | exact List.nodup_nil | exact .inr ⟨by simp, rfl⟩
  · have hb : waveriderFactor waveriderDefault ≤ 5e6 := by
      unfold waveriderFactor parabolaFactor bendX bendY waveriderX waveriderY waveriderZ waveriderDefault
      norm_num [abs_of_pos, max_def]
    constructor <;> first | exact hb | (simp only [waveriderDefault]; norm_num)

example (h : Heap) (lib : Lib) (depth : ℕ) : ∃ st st', Waverider.instanceOf bisect01 ieeeTan h id 30 30 4 [] = .ok st ∧
    generate lib depth st = (.ok (), st') ∧ (∃ M c', (st'.heap 0).mesh = (.ok M, c') ∧ Closed M.tris) ∧
    ∃ M c', (st'.heap 3).mesh = (.ok M, c') ∧ ClosedUpTo (waveriderFactor waveriderDefault * 1e-12) M.tris := by
  obtain ⟨st, h1, -, h2⟩ := C109_waverider ieeeTan ieeeTan_float h id Function.injective_id 30 30 4 (by norm_num) (by norm_num) (by norm_num) [] _
    waveriderDefault_ok.1 waveriderDefault_ok.2
  obtain ⟨st', g1, g2⟩ := h2 st lib depth ⟨rfl, fun k => .inl rfl⟩
  exact ⟨st, st', h1, g1, g2.fuselage, g2.flaps 3 (.inr rfl)⟩

end HV
