import Verif.Lemmas.RefexParts
import Verif.Lemmas.Moved
import Verif.Props.MassProps
import Verif.Props.WaveriderAngle

/-!
# C111, C119: the ReFEX
-/

namespace HV
open Spec Veh

namespace Spec

/-- The keyword arguments of the generator mean these dimensions and toggles. -/
structure ReFEXArgs (kwargs : Dict String ℝ) (p : ReFEX.Params) : Prop where
  keys : kwargs.keys.Nodup
  generate_fuselage : given kwargs "generate_fuselage" 1 p.generate_fuselage
  generate_wings : given kwargs "generate_wings" 1 p.generate_wings
  generate_canards : given kwargs "generate_canards" 1 p.generate_canards
  generate_tail : given kwargs "generate_tail" 1 p.generate_tail
  h : given kwargs "h" 0.225 p.h
  r_n : given kwargs "r_n" 0.075 p.r_n
  r_o : given kwargs "r_o" 1.5 p.r_o
  L_o : given kwargs "L_o" 0.05 p.L_o
  L_b : given kwargs "L_b" 2.5 p.L_b
  fin_thickness : given kwargs "fin_thickness" 0.02 p.fin_thickness
  wing_length : given kwargs "wing_length" 0.9 p.wing_length
  wing_span : given kwargs "wing_span" 0.35 p.wing_span
  tail_height : given kwargs "tail_height" 0.35 p.tail_height
  tail_thickness : given kwargs "tail_thickness" 0.02 p.tail_thickness
  canard_angle : given kwargs "canard_angle" 0 p.canard_angle

/-- Is part number `i` of the ReFEX asked for?  0 is the nose, 1 the body, 2 and 3 are the canards, 4 is the wing, 5 the transition, 6 the tail. -/
noncomputable def refexOn (p : ReFEX.Params) : ℕ → Bool
  | 0 | 1 | 5 => decide (p.generate_fuselage ≠ 0)
  | 2 | 3 => decide (p.generate_canards ≠ 0)
  | 4 => decide (p.generate_wings ≠ 0)
  | 6 => decide (p.generate_tail ≠ 0)
  | _ => false

/-- The default name of part number `i`. -/
noncomputable def refexName (p : ReFEX.Params) : ℕ → String
  | 0 => "revolved_1"
  | 1 => "revolved_2"
  | 2 => "fin_1"
  | 3 => "fin_2"
  | 4 => "wing_1"
  | 5 => "swept_1"
  | _ => if p.generate_canards ≠ 0 then "fin_3" else "fin_1"

end Spec

theorem refex_params (kwargs : Dict String ℝ) (p : ReFEX.Params) (ha : ReFEXArgs kwargs p) :
    ReFEX.Params.of (Generator.init ReFEX.defaults kwargs) = .ok p := by
  unfold ReFEX.Params.of
  have k := fun (s : String) (d v : ℝ) (h : given kwargs s d v) (e : ReFEX.defaults.get? s = some d) =>
    given_get' (dflts := ReFEX.defaults) ha.keys h e
  rw [k _ _ _ ha.generate_fuselage rfl, ok_bind, k _ _ _ ha.generate_wings rfl, ok_bind, k _ _ _ ha.generate_canards rfl, ok_bind,
    k _ _ _ ha.generate_tail rfl, ok_bind, k _ _ _ ha.h rfl, ok_bind, k _ _ _ ha.r_n rfl, ok_bind, k _ _ _ ha.r_o rfl, ok_bind,
    k _ _ _ ha.L_o rfl, ok_bind, k _ _ _ ha.L_b rfl, ok_bind, k _ _ _ ha.fin_thickness rfl, ok_bind, k _ _ _ ha.wing_length rfl, ok_bind,
    k _ _ _ ha.wing_span rfl, ok_bind, k _ _ _ ha.tail_height rfl, ok_bind, k _ _ _ ha.tail_thickness rfl, ok_bind,
    k _ _ _ ha.canard_angle rfl, ok_bind]
  rfl

namespace ReFEX

/-- Part number `i` at resolution `n`, as the generator leaves it. -/
noncomputable def partAt (ptan : ℝ → ℝ) (p : Params) (shift : V) (P0 P1 : PathObj) (w : Wing.State) : ℕ → ℕ → Comp
  | 0, n => RevolvedComponent P0 n
  | 1, n => RevolvedComponent P1 n
  | 2, n => Fin.comp (rounded bisect01) ptan (canardArgs p shift 0) n none
  | 3, n => Fin.comp (rounded bisect01) ptan (canardArgs p shift 1) n none
  | 4, n => wingOf ptan w n none (some "y")
  | 5, n => Swept.comp (sections p (bb0 p).x) 4 true (.int n) none
  | _, n => Fin.comp (rounded bisect01) ptan (tailArgs p) n none

/-- The default resolutions. -/
def res0 : ℕ → ℕ
  | 0 | 1 => 50
  | 5 => 20
  | _ => 3

/-- The options of part number `i`. -/
def opts : ℕ → AddOpts
  | 4 => { reflection_axis := some "y" }
  | _ => noOpts

theorem parts_eq (p : Params) (ids : ℕ → ℕ) : parts p ids = ((List.range 7).filter (refexOn p)).map fun i => (ids i, opts i) := by
  have h7 : List.range 7 = [0, 1, 2, 3, 4, 5, 6] := rfl
  unfold parts truth
  rw [h7]
  by_cases h1 : p.generate_fuselage = 0 <;> by_cases h2 : p.generate_canards = 0 <;> by_cases h3 : p.generate_wings = 0 <;>
    by_cases h4 : p.generate_tail = 0 <;> simp [h1, h2, h3, h4, refexOn, opts, List.filter]

end ReFEX

/-- Adding components to a vehicle leaves its transformations alone. -/
theorem records_frame (h : Heap) (l : List (ℕ × AddOpts)) (v : Veh) :
    (l.foldl (fun v e => v.record e.1 (h e.1) e.2) v).components = v.components ++ l.map Prod.fst ∧
    (l.foldl (fun v e => v.record e.1 (h e.1) e.2) v).transformations = v.transformations ∧
    (l.foldl (fun v e => v.record e.1 (h e.1) e.2) v).angleOffset = v.angleOffset ∧
    (l.foldl (fun v e => v.record e.1 (h e.1) e.2) v).analyseOn = v.analyseOn := by
  induction l generalizing v with
  | nil => simp
  | cons e l ih =>
    rw [List.foldl_cons]
    obtain ⟨h1, h2, h3, h4⟩ := ih (v.record e.1 (h e.1) e.2)
    refine ⟨by rw [h1]; simp [record], by rw [h2]; rfl, by rw [h3]; rfl, by rw [h4]; rfl⟩

open ReFEX in
theorem refex_instance (ptan : ℝ → ℝ) (h : Heap) (ids : ℕ → ℕ) (hi : Function.Injective ids) (shift : V) (kwargs : Dict String ℝ) (p : ReFEX.Params)
    (ha : ReFEXArgs kwargs p) (P0 P1 : PathObj) (a : Wing.Args) (w : Wing.State)
    (e0 : Ogive.comp p.h p.r_n p.r_o p.L_o 50 = .ok (RevolvedComponent P0 50)) (e1 : bodyLine p = .ok P1) (ea : wingArgs p = .ok a)
    (ew : Wing.init (rounded bisect01) a = .ok w)
    (e5 : Swept.init (sections p (bb0 p).x) true (.int 20) = .ok (Swept.comp (sections p (bb0 p).x) 4 true (.int 20) none)) :
    ∃ st, ReFEX.instanceOf bisect01 ptan h ids shift kwargs = .ok st ∧
      st.veh.components = ((List.range 7).filter (refexOn p)).map ids ∧
      st.veh.named = ((List.range 7).filter (refexOn p)).map (fun i => (refexName p i, ids i)) ∧
      st.veh.angleOffset = 0 ∧ st.veh.transformations = CART3D ∧ st.veh.analyseOn = none ∧
      ∀ i < 7, refexOn p i = true → st.heap (ids i) = partAt ptan p shift P0 P1 w i (res0 i) := by
  unfold ReFEX.instanceOf ReFEX.createInstance
  rw [refex_params kwargs p ha, ok_bind, e0, ok_bind, e1, ok_bind, ea, ok_bind]
  simp only
  set H0 : Heap := (((h.upd (ids 0) (RevolvedComponent P0 50)).upd (ids 1) (RevolvedComponent P1 50)).upd (ids 2)
    (Fin.comp (rounded bisect01) ptan (canardArgs p shift 0) 3)).upd (ids 3) (Fin.comp (rounded bisect01) ptan (canardArgs p shift 1) 3) with hH0
  have m1 : onlyIf p.generate_wings (makeWing bisect01 ptan H0 ids a) H0 =
      .ok (if truth p.generate_wings then H0.upd (ids 4) (Wing.comp ptan w 3) else H0) := by
    unfold onlyIf; split
    · unfold makeWing; rw [ew, ok_bind]; rfl
    · rfl
  rw [m1, ok_bind]
  set H1 : Heap := if truth p.generate_wings then H0.upd (ids 4) (Wing.comp ptan w 3) else H0 with hH1
  have m2 : onlyIf p.generate_fuselage (makeTransition H1 ids p) H1 =
      .ok (if truth p.generate_fuselage then H1.upd (ids 5) (Swept.comp (sections p (bb0 p).x) 4 true (.int 20) none) else H1) := by
    unfold onlyIf; split
    · unfold makeTransition; rw [e5, ok_bind]; rfl
    · rfl
  rw [m2, ok_bind]
  set H2 : Heap := if truth p.generate_fuselage then H1.upd (ids 5) (Swept.comp (sections p (bb0 p).x) 4 true (.int 20) none) else H1 with hH2
  set H : Heap := H2.upd (ids 6) (Fin.comp (rounded bisect01) ptan (tailArgs p) 3) with hH
  have low : ∀ i < 4, H (ids i) = H0 (ids i) := by
    intro i h4
    rw [hH, upd_ne _ _ _ _ (by rw [Ne, hi.eq_iff]; omega), hH2]
    have k1 : H1 (ids i) = H0 (ids i) := by
      rw [hH1]; split
      · rw [upd_ne _ _ _ _ (by rw [Ne, hi.eq_iff]; omega)]
      · rfl
    split
    · rw [upd_ne _ _ _ _ (by rw [Ne, hi.eq_iff]; omega), k1]
    · exact k1
  have f0 : H (ids 0) = RevolvedComponent P0 50 := by rw [low 0 (by norm_num)]; simp only [hH0, Heap.upd, hi.eq_iff]; rfl
  have f1 : H (ids 1) = RevolvedComponent P1 50 := by rw [low 1 (by norm_num)]; simp only [hH0, Heap.upd, hi.eq_iff]; rfl
  have f2 : H (ids 2) = Fin.comp (rounded bisect01) ptan (canardArgs p shift 0) 3 := by
    rw [low 2 (by norm_num)]; simp only [hH0, Heap.upd, hi.eq_iff]; rfl
  have f3 : H (ids 3) = Fin.comp (rounded bisect01) ptan (canardArgs p shift 1) 3 := by
    rw [low 3 (by norm_num)]; simp only [hH0, Heap.upd, hi.eq_iff]; rfl
  have f4 : p.generate_wings ≠ 0 → H (ids 4) = Wing.comp ptan w 3 := by
    intro hw
    have hw' : truth p.generate_wings = true := by simp [truth, hw]
    rw [hH, upd_ne _ _ _ _ (by rw [Ne, hi.eq_iff]; omega), hH2]
    have k1 : H1 (ids 4) = Wing.comp ptan w 3 := by rw [hH1, if_pos hw', upd_self]
    split
    · rw [upd_ne _ _ _ _ (by rw [Ne, hi.eq_iff]; omega), k1]
    · exact k1
  have f5 : p.generate_fuselage ≠ 0 → H (ids 5) = Swept.comp (sections p (bb0 p).x) 4 true (.int 20) none := by
    intro hw
    have hw' : truth p.generate_fuselage = true := by simp [truth, hw]
    rw [hH, upd_ne _ _ _ _ (by rw [Ne, hi.eq_iff]; omega), hH2, if_pos hw', upd_self]
  have f6 : H (ids 6) = Fin.comp (rounded bisect01) ptan (tailArgs p) 3 := by rw [hH, upd_self]
  have hnd : ((parts p ids).map Prod.fst).Nodup := by
    rw [parts_eq, List.map_map]
    exact (List.nodup_range.filter _).map hi
  obtain ⟨st, b1, b2, b3, b4⟩ := addAll_spec ⟨H, ({} : Veh).configure (some "ReFEX") 1⟩ (parts p ids) hnd
    (by
      intro e he
      rw [parts_eq, List.mem_map] at he
      obtain ⟨i, hi', rfl⟩ := he
      rw [List.mem_filter, List.mem_range] at hi'
      obtain ⟨h7, hon⟩ := hi'
      interval_cases i
      · simp only [f0, RevolvedComponent, Veh.allowable]; decide
      · simp only [f1, RevolvedComponent, Veh.allowable]; decide
      · simp only [f2, Fin.comp, Veh.allowable]; decide
      · simp only [f3, Fin.comp, Veh.allowable]; decide
      · simp only [f4 (by simpa [refexOn] using hon), Wing.comp, Veh.allowable]; decide
      · simp only [f5 (by simpa [refexOn] using hon), Swept.comp, Veh.allowable]; decide
      · simp only [f6, Fin.comp, Veh.allowable]; decide)
  obtain ⟨c1, c2, c3, c4⟩ := records_frame H (parts p ids) (({} : Veh).configure (some "ReFEX") 1)
  rw [b1, ok_bind]
  refine ⟨_, rfl, ?_, ?_, ?_, ?_, ?_, ?_⟩
  · show st.veh.components = _
    rw [b2, c1, parts_eq, List.map_map]
    rfl
  · show st.veh.named = _
    rw [b2]
    have n1 : Nat.repr 1 = "1" := rfl
    have n2 : Nat.repr 2 = "2" := rfl
    have n3 : Nat.repr 3 = "3" := rfl
    have h7 : List.range 7 = [0, 1, 2, 3, 4, 5, 6] := rfl
    rw [parts_eq, h7]
    by_cases h1 : p.generate_fuselage = 0 <;> by_cases h2 : p.generate_canards = 0 <;> by_cases h3 : p.generate_wings = 0 <;>
      by_cases h4 : p.generate_tail = 0 <;>
      simp [h1, h2, h3, h4, f0, f1, f2, f3, f6, f4, f5, refexOn, refexName, List.filter, n1, n2, n3, opts, noOpts, record, nextCount, nameFor,
        Veh.configure, RevolvedComponent, Wing.comp, Fin.comp, Swept.comp, Dict.set, Dict.get?, truthy]
  · show st.veh.angleOffset = _
    rw [b2, c3]; rfl
  · show st.veh.transformations ++ _ = _
    rw [b2, c2]; rfl
  · show st.veh.analyseOn = _
    rw [b2, c4]; rfl
  · intro i h7 hon
    have hm : (ids i, opts i) ∈ parts p ids := by
      rw [parts_eq]
      exact List.mem_map.2 ⟨i, List.mem_filter.2 ⟨List.mem_range.2 h7, hon⟩, rfl⟩
    show st.heap (ids i) = _
    rw [b3 _ hm]
    interval_cases i
    · simp only [f0]; rfl
    · simp only [f1]; rfl
    · simp only [f2]; rfl
    · simp only [f3]; rfl
    · simp only [f4 (by simpa [refexOn] using hon)]; rfl
    · simp only [f5 (by simpa [refexOn] using hon)]; rfl
    · simp only [f6]; rfl

namespace ReFEX

/-- What a mesh of part number `i` looks like; `n` is its resolution. -/
def MeshOk (p : Params) (shift : V) (i n : ℕ) (m : TriMesh ℝ) : Prop :=
  match i with
  | 0 | 5 => Closed m
  | 1 => Closed m ∧ (2 ≤ n → signedVolume m < 0)
  | 2 | 3 => ClosedUpTo (6e-7 * canardEdge p shift + 1e-12) m
  | 4 => GapFree 1e-12 m ∧ ∃ F, m = F ++ mapVerts (mirrorV 1) F
  | _ => ClosedUpTo (6e-7 * tailEdge p + 1e-12) m

end ReFEX

open ReFEX Classical in
/-- The vehicle of the ReFEX generator and its meshes. -/
theorem refex_meshes (ptan : ℝ → ℝ) (hT : FloatTan ptan) (h : Heap) (ids : ℕ → ℕ) (hi : Function.Injective ids) (shift : V) (kwargs : Dict String ℝ)
    (p : ReFEX.Params) (ha : ReFEXArgs kwargs p) (hp : ReFEXOk p shift) :
    ∃ st, ReFEX.instanceOf bisect01 ptan h ids shift kwargs = .ok st ∧
      st.veh.named = ((List.range 7).filter (refexOn p)).map (fun i => (refexName p i, ids i)) ∧
      ∀ st0 lib depth, Rescaled st st0 → ∃ A st', InTurn CART3D A ∧ IsMotion A ∧ generate lib depth st0 = (.ok (), st') ∧
        st'.veh = { st.veh with generated := true } ∧
        ∀ i < 7, refexOn p i = true → ∃ n m, (st0.heap (ids i)).stl_resolution = .int n ∧ 1 ≤ n ∧ MeshOk p shift i n m ∧
          MeshIs (st'.heap (ids i)) (mapVerts A m) := by
  obtain ⟨P0, e0, k0⟩ := nose_mesh hp
  obtain ⟨P1, e1, k1⟩ := body_mesh hp
  obtain ⟨a, L, wd, ea, sa, tb, tc, y0, y1, yT, l0, l1⟩ := wing_smooth hp hT
  obtain ⟨w, ew, hw1⟩ := wing_break a tb L sa.line l0 l1
  obtain ⟨st, b1, b2, b3, v1, v2, v3, f⟩ := refex_instance ptan h ids hi shift kwargs p ha P0 P1 a w e0 e1 ea ew
    (transition_mesh hp _ 20 (by norm_num) none).1
  refine ⟨st, b1, b3, fun st0 lib depth hr => ?_⟩
  have hv : st0.veh = st.veh := hr.1
  have hcs : st0.veh.components = ((List.range 7).filter (refexOn p)).map ids := by rw [hv, b2]
  have hres : ∀ i, ∃ n, i < 7 → refexOn p i = true → 1 ≤ n ∧ st0.heap (ids i) = partAt ptan p shift P0 P1 w i n := by
    intro i
    by_cases hc : i < 7 ∧ refexOn p i = true
    · obtain ⟨h7, hon⟩ := hc
      have hf := f i h7 hon
      rcases hr.2 (ids i) with h | ⟨m, hm, h⟩
      · exact ⟨res0 i, fun _ _ => ⟨by interval_cases i <;> simp [res0], h.trans hf⟩⟩
      · refine ⟨m, fun _ _ => ⟨hm, ?_⟩⟩
        rw [h, hf]
        interval_cases i <;> rfl
    · exact ⟨0, fun h1 h2 => absurd ⟨h1, h2⟩ hc⟩
  choose nr hnr using hres
  have hmem : ∀ k ∈ st0.veh.components, ∃ i < 7, refexOn p i = true ∧ k = ids i := by
    intro k hk
    rw [hcs, List.mem_map] at hk
    obtain ⟨i, hi', rfl⟩ := hk
    rw [List.mem_filter, List.mem_range] at hi'
    exact ⟨i, hi'.1, hi'.2, rfl⟩
  have ch : ∀ k ∈ st0.veh.components, (st0.heap k).children = [] := by
    intro k hk
    obtain ⟨i, h7, hon, rfl⟩ := hmem k hk
    rw [(hnr i h7 hon).2]
    interval_cases i <;> rfl
  have hres1 : ∀ i < 7, refexOn p i = true → (st0.heap (ids i)).stl_resolution = .int (nr i) := by
    intro i h7 hon
    rw [(hnr i h7 hon).2]
    interval_cases i <;> rfl
  obtain ⟨A, hI, hA, st', s1, sv, s2⟩ := generate_moved lib depth st0 (by rw [hv, v1])
    (by
      rw [hv, v2]
      intro t ht
      refine ⟨cart3d_plain t ht, ?_⟩
      simp only [CART3D, List.mem_cons, List.not_mem_nil, or_false] at ht
      rcases ht with rfl | rfl <;> exact trivial)
    (by rw [hv, v3])
    (by
      refine ⟨by rw [hcs]; exact (List.nodup_range.filter _).map hi, ?_, ?_⟩
      · intro k _ k' hk'
        rw [ch k' hk']; simp
      · intro k hk k' _ _
        rw [ch k hk]; simp)
    (fun k => if hk : ∃ i, k = ids i then nr hk.choose else 0)
    (fun k m => ∀ i, k = ids i → MeshOk p shift i (nr i) m)
    (by
      intro k hk
      obtain ⟨i, h7, hon, rfl⟩ := hmem k hk
      have hch : (if hk : ∃ j, ids i = ids j then nr hk.choose else 0) = nr i := by
        have he : ∃ j, ids i = ids j := ⟨i, rfl⟩
        rw [dif_pos he, ← hi he.choose_spec]
      have huniq : ∀ m, MeshOk p shift i (nr i) m → ∀ j, ids i = ids j → MeshOk p shift j (nr j) m := by
        intro m hm j hj
        rw [← hi hj]; exact hm
      obtain ⟨h1, hc⟩ := hnr i h7 hon
      simp only [hch]
      refine ⟨h1, ⟨hres1 i h7 hon, ?_, ?_, ?_, ?_⟩, ?_⟩
      · rw [hc]; interval_cases i <;> rfl
      · rw [hc]; interval_cases i <;> rfl
      · rw [hc]; interval_cases i <;> simp [partAt, RevolvedComponent, Fin.comp, wingOf, Wing.comp, Swept.comp]
      · rw [hc]; interval_cases i <;> rfl
      · have : ∃ g c, generatePatches st0.heap (ids i) = (.ok (), g) ∧ pipeline 0 (g (ids i)) = (.ok (), c) ∧
            ∃ M c', c.mesh = (.ok M, c') ∧ MeshOk p shift i (nr i) M.tris := by
          interval_cases i
          · exact k0 _ h1 none st0.heap _ hc
          · exact k1 _ h1 none st0.heap _ hc
          · exact canard_mesh hp hT 0 _ h1 none st0.heap _ hc
          · exact canard_mesh hp hT 1 _ h1 none st0.heap _ hc
          · obtain ⟨g, c, g1, g2, M, c', F, g3, g4, g5⟩ := half_doubled ew sa hw1 tc y0 y1 yT _ h1 st0.heap _ none hc
            exact ⟨g, c, g1, g2, M, c', g3, g4, F, g5⟩
          · exact (transition_mesh hp _ _ h1 none).2 st0.heap _ hc
          · exact tail_mesh hp hT _ h1 none st0.heap _ hc
        obtain ⟨g, c, g1, g2, M, c', g3, g4⟩ := this
        exact ⟨g, c, g1, g2, M, c', g3, huniq _ g4⟩)
  rw [hv, v2] at hI
  refine ⟨A, st', hI, hA, s1, by rw [sv, hv], fun i h7 hon => ?_⟩
  obtain ⟨m, q1, q2⟩ := s2 (ids i) (by
    rw [hcs]
    exact List.mem_map.2 ⟨i, List.mem_filter.2 ⟨List.mem_range.2 h7, hon⟩, rfl⟩)
  exact ⟨nr i, m, hres1 i h7 hon, (hnr i h7 hon).1, q1 i rfl, q2⟩

/-- What is known of the components of a generated ReFEX. -/
structure ReFEX.Meshes (p : ReFEX.Params) (shift : V) (ids : ℕ → ℕ) (st' : VState) : Prop where
  fuselage : p.generate_fuselage ≠ 0 → ∀ i, i = 0 ∨ i = 1 ∨ i = 5 → ∃ M c', (st'.heap (ids i)).mesh = (.ok M, c') ∧ Closed M.tris
  canards : p.generate_canards ≠ 0 → ∀ i, i = 2 ∨ i = 3 → ∃ M c', (st'.heap (ids i)).mesh = (.ok M, c') ∧
    ClosedUpTo (6e-7 * ReFEX.canardEdge p shift + 1e-12) M.tris
  wing : p.generate_wings ≠ 0 → ∃ M c', (st'.heap (ids 4)).mesh = (.ok M, c') ∧ GapFree 1e-12 M.tris
  tail : p.generate_tail ≠ 0 → ∃ M c', (st'.heap (ids 6)).mesh = (.ok M, c') ∧ ClosedUpTo (6e-7 * ReFEX.tailEdge p + 1e-12) M.tris

/-- C119: for all dimensions within `ReFEXOk`, every canard angle and every combination of the four toggles, the generator returns a
vehicle of exactly the parts asked for, under the default names; at every mesh resolution it generates, and in the frame of Cart3D nose, body and
transition have closed meshes, canards and tail have meshes closed up to the error of the root finder, and the wing has a mesh without gaps. -/
theorem C119_refex (ptan : ℝ → ℝ) (hT : FloatTan ptan) (h : Heap) (ids : ℕ → ℕ) (hi : Function.Injective ids) (shift : V) (kwargs : Dict String ℝ)
    (p : ReFEX.Params) (ha : ReFEXArgs kwargs p) (hp : ReFEXOk p shift) :
    ∃ st, ReFEX.instanceOf bisect01 ptan h ids shift kwargs = .ok st ∧
      st.veh.named = ((List.range 7).filter (refexOn p)).map (fun i => (refexName p i, ids i)) ∧
      ∀ st0 lib depth, Rescaled st st0 → ∃ st', generate lib depth st0 = (.ok (), st') ∧ ReFEX.Meshes p shift ids st' := by
  obtain ⟨st, b1, b2, b3⟩ := refex_meshes ptan hT h ids hi shift kwargs p ha hp
  refine ⟨st, b1, b2, fun st0 lib depth hr => ?_⟩
  obtain ⟨A, st', -, hA, g, -, q⟩ := b3 st0 lib depth hr
  have iso := motion_isometry A hA
  refine ⟨st', g, ?_, ?_, ?_, ?_⟩
  · rintro hon i (rfl | rfl | rfl)
    · obtain ⟨n, m, -, -, h1, M, c', h2, h3⟩ := q 0 (by norm_num) (by simp [refexOn, hon])
      exact ⟨M, c', h2, by rw [h3]; exact closed_mapVerts _ _ h1⟩
    · obtain ⟨n, m, -, -, h1, M, c', h2, h3⟩ := q 1 (by norm_num) (by simp [refexOn, hon])
      exact ⟨M, c', h2, by rw [h3]; exact closed_mapVerts _ _ h1.1⟩
    · obtain ⟨n, m, -, -, h1, M, c', h2, h3⟩ := q 5 (by norm_num) (by simp [refexOn, hon])
      exact ⟨M, c', h2, by rw [h3]; exact closed_mapVerts _ _ h1⟩
  · rintro hon i (rfl | rfl)
    · obtain ⟨n, m, -, -, h1, M, c', h2, h3⟩ := q 2 (by norm_num) (by simp [refexOn, hon])
      exact ⟨M, c', h2, by rw [h3]; exact closedUpTo_isometry A iso h1⟩
    · obtain ⟨n, m, -, -, h1, M, c', h2, h3⟩ := q 3 (by norm_num) (by simp [refexOn, hon])
      exact ⟨M, c', h2, by rw [h3]; exact closedUpTo_isometry A iso h1⟩
  · intro hon
    obtain ⟨n, m, -, -, h1, M, c', h2, h3⟩ := q 4 (by norm_num) (by simp [refexOn, hon])
    exact ⟨M, c', h2, by rw [h3]; exact gapFree_isometry A iso h1.1⟩
  · intro hon
    obtain ⟨n, m, -, -, h1, M, c', h2, h3⟩ := q 6 (by norm_num) (by simp [refexOn, hon])
    exact ⟨M, c', h2, by rw [h3]; exact closedUpTo_isometry A iso h1⟩

theorem forall₂_right {α β : Type} {R : α → β → Prop} {l : List α} {m : List β} (h : List.Forall₂ R l m) {a : α} (ha : a ∈ l) : ∃ b ∈ m, R a b := by
  induction h with
  | nil => cases ha
  | cons h1 _ ih =>
    rcases List.mem_cons.1 ha with rfl | ha
    · exact ⟨_, List.mem_cons_self, h1⟩
    · obtain ⟨b, hb, k⟩ := ih ha
      exact ⟨b, List.mem_cons_of_mem _ hb, k⟩

/-- C111 is violated for the ReFEX: for all its dimensions `analyse` reports a negative volume for the body, whose line runs from nose to base, and
no volume for the wing, which is added with its reflection. -/
theorem C111_refex_violated (ptan : ℝ → ℝ) (hT : FloatTan ptan) (h : Heap) (ids : ℕ → ℕ) (hi : Function.Injective ids) (shift : V)
    (kwargs : Dict String ℝ) (p : ReFEX.Params) (ha : ReFEXArgs kwargs p) (hp : ReFEXOk p shift) (lib : Lib) (hl : NumpyStl lib) (depth : ℕ)
    (dens : Dict String ℝ) :
    ∃ st, ReFEX.instanceOf bisect01 ptan h ids shift kwargs = .ok st ∧ ∀ st0, Rescaled st st0 →
      (∀ n : ℕ, (st0.heap (ids 1)).stl_resolution = .int n → 2 ≤ n) → ∃ st', generate lib depth st0 = (.ok (), st') ∧
        (lib = numpyStl → (∀ i < 7, refexOn p i = true → ∃ ρ, dens.get? (refexName p i) = some ρ) →
          (∃ i < 7, refexOn p i = true) → ∃ a st'', analyse lib (depth + 1) st' dens = (.ok a, st'')) ∧
        ∀ a st'', analyse lib (depth + 1) st' dens = (.ok a, st'') →
          (p.generate_fuselage ≠ 0 → ∃ q, ("revolved_2", q) ∈ a.components ∧ q.props.volume < 0) ∧
          (p.generate_wings ≠ 0 → ∃ q, ("wing_1", q) ∈ a.components ∧ q.props.volume = 0 ∧ q.props.mass = 0) := by
  obtain ⟨st, b1, b2, b3⟩ := refex_meshes ptan hT h ids hi shift kwargs p ha hp
  refine ⟨st, b1, fun st0 hr hn => ?_⟩
  obtain ⟨A, st', hI, hA, g1, g2, g3⟩ := b3 st0 lib depth hr
  have hnamed : st'.veh.named = ((List.range 7).filter (refexOn p)).map (fun i => (refexName p i, ids i)) := by rw [g2]; exact b2
  have hmem : ∀ e ∈ st'.veh.named, ∃ i < 7, refexOn p i = true ∧ e = (refexName p i, ids i) := by
    intro e he
    rw [hnamed, List.mem_map] at he
    obtain ⟨i, hi', rfl⟩ := he
    rw [List.mem_filter, List.mem_range] at hi'
    exact ⟨i, hi'.1, hi'.2, rfl⟩
  have hmem' : ∀ i < 7, refexOn p i = true → (refexName p i, ids i) ∈ st'.veh.named := by
    intro i h7 hon
    rw [hnamed]
    exact List.mem_map.2 ⟨i, List.mem_filter.2 ⟨List.mem_range.2 h7, hon⟩, rfl⟩
  refine ⟨st', g1, ?_, fun a st'' hAn => ?_⟩
  · rintro rfl hd ⟨i, h7, hon⟩
    refine analyse_total st' dens depth (by rw [g2]) (List.ne_nil_of_mem (hmem' i h7 hon)) ?_ ?_
    · intro e he
      obtain ⟨i, h7, hon, rfl⟩ := hmem e he
      obtain ⟨n, m, -, -, -, M, c', h2, -⟩ := g3 i h7 hon
      exact ⟨M, c', h2⟩
    · intro e he
      obtain ⟨i, h7, hon, rfl⟩ := hmem e he
      exact hd i h7 hon
  · have hc := (C76_sums lib depth st' st'' dens a (by rw [g2]) hAn).components
    refine ⟨fun hon => ?_, fun hon => ?_⟩
    · have hon' : refexOn p 1 = true := by simp [refexOn, hon]
      obtain ⟨x, hx, z, M, c, ρ, y, -, q, -⟩ := forall₂_right hc (hmem' 1 (by norm_num) hon')
      obtain ⟨n, m, r1, -, r3, M', c'', h2, h3⟩ := g3 1 (by norm_num) hon'
      refine ⟨x.2, ?_, ?_⟩
      · rw [show "revolved_2" = x.1 from z.symm]; exact hx
      · rw [h2] at y
        obtain rfl := Except.ok.inj (Prod.mk.inj y).1
        rw [(C111_component lib hl M' (by rw [h3]; exact closed_mapVerts _ _ r3.1) _ _ q).1, h3, signedVolume_motion A hA m r3.1]
        exact r3.2 (hn n r1)
    · have hon' : refexOn p 4 = true := by simp [refexOn, hon]
      obtain ⟨x, hx, z, M, c, ρ, y, -, q, -⟩ := forall₂_right hc (hmem' 4 (by norm_num) hon')
      obtain ⟨n, m, r1, -, ⟨-, F, r3⟩, M', c'', h2, h3⟩ := g3 4 (by norm_num) hon'
      refine ⟨x.2, ?_, ?_⟩
      · rw [show "wing_1" = x.1 from z.symm]; exact hx
      · rw [h2] at y
        obtain rfl := Except.ok.inj (Prod.mk.inj y).1
        refine C111_reflected_violated lib hl M' (mapVerts A F) 2 ?_ _ _ q
        have hm : ∀ v, A (mirrorV 1 v) = mirrorV 2 (A v) := by
          intro v
          rw [moved_cart3d _ _ (Waverider.inTurn_moved hI _), moved_cart3d _ _ (Waverider.inTurn_moved hI v)]
          simp [cart3d, mirrorV]
        rw [h3, r3]
        simp [mapVerts, hm]

/-- The ReFEX without arguments. -/
noncomputable def refexDefault : ReFEX.Params := ⟨1, 1, 1, 1, 0.225, 0.075, 1.5, 0.05, 2.5, 0.02, 0.9, 0.35, 0.35, 0.02, 0⟩

theorem refexDefault_ok : ReFEXArgs [] refexDefault ∧ ReFEXOk refexDefault ReFEX.defaultShift := by
  constructor
  · constructor <;> first | exact List.nodup_nil | exact .inr ⟨by simp, rfl⟩
  · constructor <;> (simp only [refexDefault, ReFEX.defaultShift]; try norm_num)

example (h : Heap) (lib : Lib) (depth : ℕ) : ∃ st st', ReFEX.instanceOf bisect01 ieeeTan h id ReFEX.defaultShift [] = .ok st ∧
    st.veh.named = [("revolved_1", 0), ("revolved_2", 1), ("fin_1", 2), ("fin_2", 3), ("wing_1", 4), ("swept_1", 5), ("fin_3", 6)] ∧
    generate lib depth st = (.ok (), st') ∧ (∃ M c', (st'.heap 5).mesh = (.ok M, c') ∧ Closed M.tris) ∧
    ∃ M c', (st'.heap 3).mesh = (.ok M, c') ∧ ClosedUpTo (6e-7 * ReFEX.canardEdge refexDefault ReFEX.defaultShift + 1e-12) M.tris := by
  obtain ⟨st, h1, h3, h2⟩ := C119_refex ieeeTan ieeeTan_float h id Function.injective_id _ [] _ refexDefault_ok.1 refexDefault_ok.2
  obtain ⟨st', g1, g2⟩ := h2 st lib depth ⟨rfl, fun k => .inl rfl⟩
  refine ⟨st, st', h1, ?_, g1, g2.fuselage (by simp [refexDefault]) 5 (by simp), g2.canards (by simp [refexDefault]) 3 (by simp)⟩
  have h7 : List.range 7 = [0, 1, 2, 3, 4, 5, 6] := rfl
  rw [h3, h7]
  simp [refexOn, refexName, refexDefault, List.filter]

/-- Without fuselage and canards: the tail becomes the first fin. -/
example (h : Heap) (lib : Lib) (depth : ℕ) : ∃ st st', ReFEX.instanceOf bisect01 ieeeTan h id ReFEX.defaultShift
      [("generate_fuselage", 0), ("generate_canards", 0)] = .ok st ∧
    st.veh.named = [("wing_1", 4), ("fin_1", 6)] ∧ generate lib depth st = (.ok (), st') ∧ ∃ M c', (st'.heap 4).mesh = (.ok M, c') ∧ GapFree 1e-12 M.tris := by
  have ha : ReFEXArgs [("generate_fuselage", 0), ("generate_canards", 0)] { refexDefault with generate_fuselage := 0, generate_canards := 0 } := by
    refine ⟨by decide, .inl (by simp), .inr ⟨by simp, rfl⟩, .inl (by simp), ?_, ?_, ?_, ?_, ?_, ?_, ?_, ?_, ?_, ?_, ?_, ?_⟩ <;>
      exact .inr ⟨by simp, rfl⟩
  have ho : ReFEXOk { refexDefault with generate_fuselage := 0, generate_canards := 0 } ReFEX.defaultShift := by
    constructor <;> (simp only [refexDefault, ReFEX.defaultShift]; try norm_num)
  obtain ⟨st, h1, h3, h2⟩ := C119_refex ieeeTan ieeeTan_float h id Function.injective_id _ _ _ ha ho
  obtain ⟨st', g1, g2⟩ := h2 st lib depth ⟨rfl, fun k => .inl rfl⟩
  refine ⟨st, st', h1, ?_, g1, g2.wing (by simp [refexDefault])⟩
  have h7 : List.range 7 = [0, 1, 2, 3, 4, 5, 6] := rfl
  rw [h3, h7]
  simp [refexOn, refexName, refexDefault, List.filter]

/-- The default ReFEX with numpy-stl and densities for all parts meets the hypotheses of `C111_refex_violated`. -/
example (h : Heap) (depth : ℕ) : ∃ st st' a st'', ReFEX.instanceOf bisect01 ieeeTan h id ReFEX.defaultShift [] = .ok st ∧
    generate numpyStl depth st = (.ok (), st') ∧
    analyse numpyStl (depth + 1) st' [("revolved_1", 1), ("revolved_2", 1), ("fin_1", 1), ("fin_2", 1), ("wing_1", 1), ("swept_1", 1), ("fin_3", 1)] =
      (.ok a, st'') ∧ ∃ q, ("revolved_2", q) ∈ a.components ∧ q.props.volume < 0 := by
  obtain ⟨P0, e0, -⟩ := ReFEX.nose_mesh refexDefault_ok.2
  obtain ⟨P1, e1, -⟩ := ReFEX.body_mesh refexDefault_ok.2
  obtain ⟨a, L, wd, ea, sa, tb, -, -, -, -, l0, l1⟩ := ReFEX.wing_smooth refexDefault_ok.2 ieeeTan_float
  obtain ⟨w, ew, -⟩ := wing_break a tb L sa.line l0 l1
  obtain ⟨st0, k1, -, -, -, -, -, k2⟩ := refex_instance ieeeTan h id Function.injective_id ReFEX.defaultShift [] _ refexDefault_ok.1 P0 P1 a w e0 e1 ea ew
    (ReFEX.transition_mesh refexDefault_ok.2 _ 20 (by norm_num) none).1
  obtain ⟨st, h1, h2⟩ := C111_refex_violated ieeeTan ieeeTan_float h id Function.injective_id _ [] _ refexDefault_ok.1 refexDefault_ok.2 numpyStl
    numpyStl_ok depth [("revolved_1", 1), ("revolved_2", 1), ("fin_1", 1), ("fin_2", 1), ("wing_1", 1), ("swept_1", 1), ("fin_3", 1)]
  rw [k1] at h1
  obtain rfl := Except.ok.inj h1
  obtain ⟨st', g1, g2, g3⟩ := h2 st0 ⟨rfl, fun k => .inl rfl⟩ (by
    intro n hn
    rw [show (id 1 : ℕ) = 1 from rfl] at hn
    have := k2 1 (by norm_num) (by simp [refexOn, refexDefault])
    rw [show (id 1 : ℕ) = 1 from rfl] at this
    rw [this] at hn
    have : n = 50 := by
      simp only [ReFEX.partAt, ReFEX.res0, RevolvedComponent] at hn
      cases hn; rfl
    omega)
  obtain ⟨a, st'', g4⟩ := g2 rfl
    (by
      intro i h7 _
      interval_cases i <;> simp [refexName, refexDefault, Dict.get?])
    ⟨0, by norm_num, by simp [refexOn, refexDefault]⟩
  exact ⟨st0, st', a, st'', k1, g1, g4, (g3 a st'' g4).1 (by simp [refexDefault])⟩

end HV
