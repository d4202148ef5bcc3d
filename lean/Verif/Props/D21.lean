import Verif.Lemmas.D21Parts
import Verif.Lemmas.D21Spike
import Verif.Props.Refex

/-!
# C111, C120: the D-21
-/

namespace HV
open Spec Veh

namespace Spec

/-- The keyword arguments of the generator mean these dimensions. -/
structure D21Args (kwargs : Dict String ℝ) (p : D21.Params) : Prop where
  keys : kwargs.keys.Nodup
  R_b : given kwargs "R_b" 1 p.R_b
  L_b : given kwargs "L_b" 20 p.L_b
  L_w : given kwargs "L_w" 16 p.L_w
  W_w : given kwargs "W_w" 5 p.W_w
  flap_angle : given kwargs "flap_angle" 0 p.flap_angle

/-- The components of the D-21 under their names. -/
def d21Names (ids : ℕ → ℕ) : List (String × ℕ) :=
  [("revolved_1", ids 0), ("revolved_2", ids 1), ("wing_1", ids 2), ("fin_1", ids 3), ("fin_2", ids 4), ("fin_3", ids 5)]

end Spec

theorem d21_params (kwargs : Dict String ℝ) (p : D21.Params) (ha : D21Args kwargs p) :
    D21.Params.of (Generator.init D21.defaults kwargs) = .ok p := by
  unfold D21.Params.of
  have k := fun (s : String) (d v : ℝ) (h : given kwargs s d v) (e : D21.defaults.get? s = some d) =>
    given_get' (dflts := D21.defaults) ha.keys h e
  rw [k _ _ _ ha.R_b rfl, ok_bind, k _ _ _ ha.L_b rfl, ok_bind, k _ _ _ ha.L_w rfl, ok_bind, k _ _ _ ha.W_w rfl, ok_bind,
    k _ _ _ ha.flap_angle rfl, ok_bind]
  rfl

namespace D21

/-- Part number `i` at resolution `n`, as the generator leaves it. -/
noncomputable def partAt (ptan : ℝ → ℝ) (p : Params) (P0 P1 : PathObj) (w : Wing.State) : ℕ → ℕ → Comp
  | 0, n => RevolvedComponent P0 n
  | 1, n => RevolvedComponent P1 n
  | 2, n => wingOf ptan w n none (some "y")
  | 3, n => Fin.comp (rounded bisect01) ptan (tailArgs p) n none
  | 4, n => Fin.comp (rounded bisect01) ptan (trailArgs p 0) n none
  | _, n => Fin.comp (rounded bisect01) ptan (trailArgs p 180) n none

/-- The resolutions the generator sets. -/
def res0 (nw nt : ℕ) : ℕ → ℕ
  | 0 | 1 => 20
  | 2 => nw
  | _ => nt

end D21

open D21 in
theorem d21_instance (ptan : ℝ → ℝ) (h : Heap) (ids : ℕ → ℕ) (hi : Function.Injective ids) (nw nt : ℕ) (kwargs : Dict String ℝ) (p : D21.Params)
    (ha : D21Args kwargs p) (P0 P1 P2 : PathObj) (w : Wing.State) (e0 : fuseLine p = .ok P0) (e1 : noseLine p = .ok P1) (e2 : edge p = .ok P2)
    (ew : Wing.init (rounded bisect01) (wingArgs bisect01 P2 p) = .ok w) :
    ∃ st, D21.instanceOf bisect01 ptan h ids nw nt kwargs = .ok st ∧ st.veh.components = (List.range 6).map ids ∧ st.veh.named = d21Names ids ∧
      st.veh.angleOffset = 0 ∧ st.veh.transformations = [] ∧ st.veh.analyseOn = none ∧
      ∀ i < 6, st.heap (ids i) = partAt ptan p P0 P1 w i (res0 nw nt i) := by
  unfold D21.instanceOf D21.createInstance
  rw [d21_params kwargs p ha, ok_bind, e0, ok_bind, e1, ok_bind, e2, ok_bind, ew, ok_bind]
  simp only
  set H : Heap := (((((h.upd (ids 0) (RevolvedComponent P0 20)).upd (ids 1) (RevolvedComponent P1 20)).upd (ids 2) (Wing.comp ptan w nw)).upd (ids 3)
    (Fin.comp (rounded bisect01) ptan (tailArgs p) nt)).upd (ids 4) (Fin.comp (rounded bisect01) ptan (trailArgs p 0) nt)).upd (ids 5)
    (Fin.comp (rounded bisect01) ptan (trailArgs p 180) nt) with hH
  have f0 : H (ids 0) = RevolvedComponent P0 20 := by simp only [hH, Heap.upd, hi.eq_iff]; rfl
  have f1 : H (ids 1) = RevolvedComponent P1 20 := by simp only [hH, Heap.upd, hi.eq_iff]; rfl
  have f2 : H (ids 2) = Wing.comp ptan w nw := by simp only [hH, Heap.upd, hi.eq_iff]; rfl
  have f3 : H (ids 3) = Fin.comp (rounded bisect01) ptan (tailArgs p) nt := by simp only [hH, Heap.upd, hi.eq_iff]; rfl
  have f4 : H (ids 4) = Fin.comp (rounded bisect01) ptan (trailArgs p 0) nt := by simp only [hH, Heap.upd, hi.eq_iff]; rfl
  have f5 : H (ids 5) = Fin.comp (rounded bisect01) ptan (trailArgs p 180) nt := by simp only [hH, Heap.upd, hi.eq_iff]; rfl
  obtain ⟨st, b1, b2, b3, -⟩ := addAll_spec ⟨H, ({} : Veh).configure (some "Lockhead Martin D-21") 1⟩ (D21.parts ids)
    (by simp [D21.parts, hi.eq_iff])
    (by
      intro e he
      simp only [D21.parts, List.mem_cons, List.not_mem_nil, or_false] at he
      rcases he with rfl | rfl | rfl | rfl | rfl | rfl
      · simp only [f0, RevolvedComponent, Veh.allowable]; decide
      · simp only [f1, RevolvedComponent, Veh.allowable]; decide
      · simp only [f2, Wing.comp, Veh.allowable]; decide
      · simp only [f3, Fin.comp, Veh.allowable]; decide
      · simp only [f4, Fin.comp, Veh.allowable]; decide
      · simp only [f5, Fin.comp, Veh.allowable]; decide)
  obtain ⟨c1, c2, c3, c4⟩ := records_frame H (D21.parts ids) (({} : Veh).configure (some "Lockhead Martin D-21") 1)
  refine ⟨st, b1, ?_, ?_, ?_, ?_, ?_, ?_⟩
  · rw [b2, c1]; rfl
  · rw [b2]
    have n1 : Nat.repr 1 = "1" := rfl
    have n2 : Nat.repr 2 = "2" := rfl
    have n3 : Nat.repr 3 = "3" := rfl
    simp [D21.parts, f0, f1, f2, f3, f4, f5, n1, n2, n3, record, nextCount, nameFor, d21Names,
        Veh.configure, RevolvedComponent, Wing.comp, Fin.comp, Dict.set, Dict.get?, truthy]
  · rw [b2, c3]; rfl
  · rw [b2, c2]; rfl
  · rw [b2, c4]; rfl
  · intro i h6
    interval_cases i
    · rw [b3 (ids 0, { name := none }) (by simp [D21.parts])]; simp only [f0]; rfl
    · rw [b3 (ids 1, { name := none }) (by simp [D21.parts])]; simp only [f1]; rfl
    · rw [b3 (ids 2, { reflection_axis := some "y" }) (by simp [D21.parts])]; simp only [f2]; rfl
    · rw [b3 (ids 3, { name := none }) (by simp [D21.parts])]; simp only [f3]; rfl
    · rw [b3 (ids 4, { name := none }) (by simp [D21.parts])]; simp only [f4]; rfl
    · rw [b3 (ids 5, { name := none }) (by simp [D21.parts])]; simp only [f5]; rfl

namespace Spec

/-- The gap between two edges of the mesh of a trailing wing of the D-21 at resolution `n` is more than twice `ε`. -/
structure D21TrailGap (p : D21.Params) (n : ℕ) (ε : ℝ) : Prop where
  pos : 0 ≤ ε
  tip : 4 * ε < 0.45 * p.W_w / n
  root : 2 * ε + 0.06 < 0.45 * p.W_w / n
  long : 2 * ε + 0.06 < (1.3 * (p.L_b - p.L_w) - 0.45 * p.W_w) / (2 * n)
  thick : 2 * ε < 0.15 * p.R_b

end Spec

namespace D21

/-- What the mesh of part number `i` looks like; `n` is its resolution. -/
def MeshOk (p : Params) (i n : ℕ) (m : TriMesh ℝ) : Prop :=
  match i with
  | 0 | 1 => Closed m ∧ (2 ≤ n → signedVolume m < 0)
  | 2 => GapFree 1e-12 m ∧ ∃ F, m = F ++ mapVerts (mirrorV 1) F
  | 3 => ClosedUpTo (6e-7 * tailEdge p + 1e-12) m
  | _ => 2 ≤ n → ∀ ε, D21TrailGap p n ε → ¬ ClosedUpTo ε m

end D21

open D21 Classical in
/-- The vehicle of the D-21 generator and its meshes. -/
theorem d21_meshes (ptan : ℝ → ℝ) (hT : FloatTan ptan) (h : Heap) (ids : ℕ → ℕ) (hi : Function.Injective ids) (nw nt : ℕ) (hnw : 1 ≤ nw) (hnt : 1 ≤ nt)
    (kwargs : Dict String ℝ) (p : D21.Params) (ha : D21Args kwargs p) (hp : D21Ok p) :
    ∃ st, D21.instanceOf bisect01 ptan h ids nw nt kwargs = .ok st ∧ st.veh.named = d21Names ids ∧
      (∀ i < 6, (st.heap (ids i)).stl_resolution = .int (res0 nw nt i)) ∧
      ∀ st0 lib depth, Rescaled st st0 → (∀ n : ℕ, (st0.heap (ids 2)).stl_resolution = .int n → D21Coarse p n) →
        ∃ st', generate lib depth st0 = (.ok (), st') ∧ st'.veh = { st.veh with generated := true } ∧
        ∀ i < 6, ∃ n M c', (st0.heap (ids i)).stl_resolution = .int n ∧ 1 ≤ n ∧ (st'.heap (ids i)).mesh = (.ok M, c') ∧ MeshOk p i n M.tris := by
  obtain ⟨P0, e0, k0⟩ := fuse_mesh hp
  obtain ⟨P1, e1, k1⟩ := nose_mesh hp
  obtain ⟨P2, l1, l2, T1, T2, e2, hE⟩ := edge_eq p hp.wing hp.span
  obtain ⟨w, ew, hw1, hw2⟩ := wing_init hE hp
  obtain ⟨hwa, hon⟩ := wing_on hE hp hT w ew hw1
  obtain ⟨st, b1, b2, b3, v1, v2, v3, f⟩ := d21_instance ptan h ids hi nw nt kwargs p ha P0 P1 P2 w e0 e1 e2 ew
  refine ⟨st, b1, b3, ?_, fun st0 lib depth hr hcoarse => ?_⟩
  · intro i h6
    rw [f i h6]
    interval_cases i <;> rfl
  have hv : st0.veh = st.veh := hr.1
  have hcs : st0.veh.components = (List.range 6).map ids := by rw [hv, b2]
  have hres : ∀ i, ∃ n, i < 6 → 1 ≤ n ∧ st0.heap (ids i) = partAt ptan p P0 P1 w i n := by
    intro i
    by_cases h6 : i < 6
    · have hf := f i h6
      rcases hr.2 (ids i) with h | ⟨m, hm, h⟩
      · exact ⟨res0 nw nt i, fun _ => ⟨by interval_cases i <;> simp only [res0] <;> first | assumption | norm_num, h.trans hf⟩⟩
      · refine ⟨m, fun _ => ⟨hm, ?_⟩⟩
        rw [h, hf]
        interval_cases i <;> rfl
    · exact ⟨0, fun h1 => absurd h1 h6⟩
  choose nr hnr using hres
  have hmem : ∀ k ∈ st0.veh.components, ∃ i < 6, k = ids i := by
    intro k hk
    rw [hcs, List.mem_map] at hk
    obtain ⟨i, hi', rfl⟩ := hk
    exact ⟨i, List.mem_range.1 hi', rfl⟩
  have ch : ∀ k ∈ st0.veh.components, (st0.heap k).children = [] := by
    intro k hk
    obtain ⟨i, h6, rfl⟩ := hmem k hk
    rw [(hnr i h6).2]
    interval_cases i <;> rfl
  have hres1 : ∀ i < 6, (st0.heap (ids i)).stl_resolution = .int (nr i) := by
    intro i h6
    rw [(hnr i h6).2]
    interval_cases i <;> rfl
  obtain ⟨st', s1, sv, s2⟩ := generate_parts lib depth st0 (by rw [hv, v1]) (by rw [hv, v2]) (by rw [hv, v3])
    (by
      refine ⟨by rw [hcs]; exact List.nodup_range.map hi, ?_, ?_⟩
      · intro k _ k' hk'
        rw [ch k' hk']; simp
      · intro k hk k' _ _
        rw [ch k hk]; simp)
    (fun k c => ∀ i < 6, k = ids i → ∃ M c', c.mesh = (.ok M, c') ∧ MeshOk p i (nr i) M.tris)
    (by
      intro k hk
      obtain ⟨i, h6, rfl⟩ := hmem k hk
      obtain ⟨h1, hc⟩ := hnr i h6
      have : ∃ g c, generatePatches st0.heap (ids i) = (.ok (), g) ∧ pipeline 0 (g (ids i)) = (.ok (), c) ∧
          ∃ M c', c.mesh = (.ok M, c') ∧ MeshOk p i (nr i) M.tris := by
        have trail : ∀ angle, st0.heap (ids i) = Fin.comp (rounded bisect01) ptan (trailArgs p angle) (nr i) none →
            ∃ g c, generatePatches st0.heap (ids i) = (.ok (), g) ∧ pipeline 0 (g (ids i)) = (.ok (), c) ∧
              ∃ M c', c.mesh = (.ok M, c') ∧ (2 ≤ nr i → ∀ ε, D21TrailGap p (nr i) ε → ¬ ClosedUpTo ε M.tris) := by
          intro angle hc'
          obtain ⟨g, c, g1, g2, M, c', g3, g4⟩ := trail_mesh hp hT angle _ h1 none st0.heap _ hc'
          exact ⟨g, c, g1, g2, M, c', g3, fun h2 ε hε => g4 h2 ε hε.pos hε.tip hε.root hε.long hε.thick⟩
        interval_cases i
        · exact k0 _ h1 none st0.heap _ hc
        · exact k1 _ h1 none st0.heap _ hc
        · obtain ⟨g, c, g1, g2, M, c', F, g3, g4, g5⟩ := half_doubled_on hon _ h1
            (sampled hE hp _ h1 (hcoarse _ (hres1 2 (by norm_num))) _ hw1 hw2) (by rw [hwa]; rfl) (by rw [hwa]; simp [wingArgs, A0])
            (by rw [hwa]; simp [wingArgs, A1]) (by rw [hwa]; simp [wingArgs, TT]) st0.heap _ none hc
          exact ⟨g, c, g1, g2, M, c', g3, g4, F, g5⟩
        · exact tail_mesh hp hT _ h1 none st0.heap _ hc
        · exact trail 0 hc
        · exact trail 180 hc
      obtain ⟨g, c, g1, g2, g3⟩ := this
      refine ⟨g, c, g1, g2, fun j _ hj => ?_⟩
      rw [← hi hj]; exact g3)
  refine ⟨st', s1, by rw [sv, hv], fun i h6 => ?_⟩
  obtain ⟨M, c', q1, q2⟩ := s2 (ids i) (by
    rw [hcs]
    exact List.mem_map.2 ⟨i, List.mem_range.2 h6, rfl⟩) i h6 rfl
  exact ⟨nr i, M, c', hres1 i h6, (hnr i h6).1, q1, q2⟩

/-- What is known of the watertight components of a generated D-21. -/
structure D21.Meshes (p : D21.Params) (ids : ℕ → ℕ) (st' : VState) : Prop where
  fuselage : ∀ i, i = 0 ∨ i = 1 → ∃ M c', (st'.heap (ids i)).mesh = (.ok M, c') ∧ Closed M.tris
  wing : ∃ M c', (st'.heap (ids 2)).mesh = (.ok M, c') ∧ GapFree 1e-12 M.tris
  tail : ∃ M c', (st'.heap (ids 3)).mesh = (.ok M, c') ∧ ClosedUpTo (6e-7 * D21.tailEdge p + 1e-12) M.tris
  trailing : ∀ i, i = 4 ∨ i = 5 → ∃ M c', (st'.heap (ids i)).mesh = (.ok M, c')

/-- C120, the part that holds: for all dimensions within `D21Ok`, whatever the mesh resolutions as long as that of the wing is coarse
(`D21Coarse`), the generator returns a vehicle of six named parts and it generates; fuselage and nose have closed meshes, the wing has a mesh without
gaps and the tail has a mesh closed up to the error of the root finder.  Missing: the trailing wings have a mesh, but it is open; and the wing of
a finer resolution. -/
theorem C120_d21_partial (ptan : ℝ → ℝ) (hT : FloatTan ptan) (h : Heap) (ids : ℕ → ℕ) (hi : Function.Injective ids) (nw nt : ℕ) (hnw : 1 ≤ nw)
    (hnt : 1 ≤ nt) (kwargs : Dict String ℝ) (p : D21.Params) (ha : D21Args kwargs p) (hp : D21Ok p) :
    ∃ st, D21.instanceOf bisect01 ptan h ids nw nt kwargs = .ok st ∧ st.veh.named = d21Names ids ∧
      (st.heap (ids 2)).stl_resolution = .int nw ∧
      ∀ st0 lib depth, Rescaled st st0 → (∀ n : ℕ, (st0.heap (ids 2)).stl_resolution = .int n → D21Coarse p n) →
        ∃ st', generate lib depth st0 = (.ok (), st') ∧ D21.Meshes p ids st' := by
  obtain ⟨st, b1, b2, b3, b4⟩ := d21_meshes ptan hT h ids hi nw nt hnw hnt kwargs p ha hp
  refine ⟨st, b1, b2, b3 2 (by norm_num), fun st0 lib depth hr hc => ?_⟩
  obtain ⟨st', g, -, q⟩ := b4 st0 lib depth hr hc
  refine ⟨st', g, ?_, ?_, ?_, ?_⟩
  · rintro i (rfl | rfl)
    · obtain ⟨n, M, c', -, -, h1, h2⟩ := q 0 (by norm_num)
      exact ⟨M, c', h1, h2.1⟩
    · obtain ⟨n, M, c', -, -, h1, h2⟩ := q 1 (by norm_num)
      exact ⟨M, c', h1, h2.1⟩
  · obtain ⟨n, M, c', -, -, h1, h2⟩ := q 2 (by norm_num)
    exact ⟨M, c', h1, h2.1⟩
  · obtain ⟨n, M, c', -, -, h1, h2⟩ := q 3 (by norm_num)
    exact ⟨M, c', h1, h2⟩
  · rintro i (rfl | rfl)
    · obtain ⟨n, M, c', -, -, h1, h2⟩ := q 4 (by norm_num)
      exact ⟨M, c', h1⟩
    · obtain ⟨n, M, c', -, -, h1, h2⟩ := q 5 (by norm_num)
      exact ⟨M, c', h1⟩

/-- C120 is violated: both trailing wings have open meshes, which no movement of their vertices by `ε` closes, for all dimensions and resolutions
within `D21TrailGap`. -/
theorem C120_d21_violated (ptan : ℝ → ℝ) (hT : FloatTan ptan) (h : Heap) (ids : ℕ → ℕ) (hi : Function.Injective ids) (nw nt : ℕ) (hnw : 1 ≤ nw)
    (hnt : 1 ≤ nt) (kwargs : Dict String ℝ) (p : D21.Params) (ha : D21Args kwargs p) (hp : D21Ok p) (hc : D21Coarse p nw) (hn : 2 ≤ nt) (ε : ℝ)
    (hε : D21TrailGap p nt ε) (lib : Lib) (depth : ℕ) :
    ∃ st st', D21.instanceOf bisect01 ptan h ids nw nt kwargs = .ok st ∧ generate lib depth st = (.ok (), st') ∧
      ∀ name, name = "fin_2" ∨ name = "fin_3" → ∃ id M c', (name, id) ∈ st'.veh.named ∧ (st'.heap id).mesh = (.ok M, c') ∧ ¬ ClosedUpTo ε M.tris := by
  obtain ⟨st, b1, b2, b3, b4⟩ := d21_meshes ptan hT h ids hi nw nt hnw hnt kwargs p ha hp
  obtain ⟨st', g, gv, q⟩ := b4 st lib depth ⟨rfl, fun k => .inl rfl⟩ (by
    intro n hn'
    rw [b3 2 (by norm_num)] at hn'
    have : nw = n := by simpa [D21.res0] using hn'
    rw [← this]; exact hc)
  refine ⟨st, st', b1, g, ?_⟩
  have key : ∀ i, i = 4 ∨ i = 5 → ∃ M c', (st'.heap (ids i)).mesh = (.ok M, c') ∧ ¬ ClosedUpTo ε M.tris := by
    rintro i (rfl | rfl)
    · obtain ⟨n, M, c', r, -, h1, h2⟩ := q 4 (by norm_num)
      have : nt = n := by rw [b3 4 (by norm_num)] at r; simpa [D21.res0] using r
      rw [← this] at h2
      exact ⟨M, c', h1, h2 hn ε hε⟩
    · obtain ⟨n, M, c', r, -, h1, h2⟩ := q 5 (by norm_num)
      have : nt = n := by rw [b3 5 (by norm_num)] at r; simpa [D21.res0] using r
      rw [← this] at h2
      exact ⟨M, c', h1, h2 hn ε hε⟩
  have hv : st'.veh.named = d21Names ids := by rw [gv]; exact b2
  rintro name (rfl | rfl)
  · obtain ⟨M, c', h1, h2⟩ := key 4 (.inl rfl)
    exact ⟨ids 4, M, c', by rw [hv]; simp [d21Names], h1, h2⟩
  · obtain ⟨M, c', h1, h2⟩ := key 5 (.inr rfl)
    exact ⟨ids 5, M, c', by rw [hv]; simp [d21Names], h1, h2⟩

open D21 in
/-- C120 is violated: at a fine resolution the wing, if it can be generated and meshed at all, has a vertex more than thirty spans above the wing,
because the thickness function divides by a millimetre all along the last part of the leading edge. -/
theorem C120_d21_wing_violated (ptan : ℝ → ℝ) (hT : FloatTan ptan) (h : Heap) (ids : ℕ → ℕ) (hi : Function.Injective ids) (nw nt : ℕ) (hnw : 1 ≤ nw)
    (kwargs : Dict String ℝ) (p : D21.Params) (ha : D21Args kwargs p) (hp : D21Ok p) (hf : D21Fine p nw) :
    ∃ st, D21.instanceOf bisect01 ptan h ids nw nt kwargs = .ok st ∧ ("wing_1", ids 2) ∈ st.veh.named ∧
      ∀ lib depth st' M c', generate lib depth st = (.ok (), st') → (st'.heap (ids 2)).mesh = (.ok M, c') →
        ∃ v, IsVertex v M.tris ∧ v.x = -0.3 ∧ 30 * p.W_w - 0.5 - 0.075 * p.R_b ≤ v.z := by
  obtain ⟨P0, e0, -⟩ := fuse_mesh hp
  obtain ⟨P1, e1, -⟩ := nose_mesh hp
  obtain ⟨P2, l1, l2, T1, T2, e2, hE⟩ := edge_eq p hp.wing hp.span
  obtain ⟨w, ew, hw1, hw2⟩ := wing_init hE hp
  obtain ⟨st, b1, b2, b3, v1, v2, v3, f⟩ := d21_instance ptan h ids hi nw nt kwargs p ha P0 P1 P2 w e0 e1 e2 ew
  refine ⟨st, b1, by rw [b3]; simp [d21Names], fun lib depth st' M c' hg hm => ?_⟩
  obtain ⟨h1, h2, g1, g2, g3, -, -⟩ := generate_steps lib depth st st' hg
  obtain rfl : h2 = h1 := by
    rcases g2 with ⟨-, h⟩ | ⟨hne, -⟩
    · exact h
    · exact absurd v2 hne
  have hst : st'.heap = h2 := by
    simp only [genAnalyse, v3] at g3
    rw [← (Prod.mk.inj g3).2]
  have ch : ∀ k ∈ st.veh.components, (st.heap k).children = [] := by
    intro k hk
    rw [b2, List.mem_map] at hk
    obtain ⟨i, hi', rfl⟩ := hk
    have h6 := List.mem_range.1 hi'
    rw [f i h6]
    interval_cases i <;> rfl
  obtain ⟨g, k1, k2⟩ := genAll_spec _ _ _ (unshared_leaves _ _ (by rw [b2]; exact List.nodup_range.map hi) ch) _ g1 (ids 2)
    (by rw [b2]; exact List.mem_map.2 ⟨2, by simp, rfl⟩)
  rw [v1] at k2
  rw [hst] at hm
  exact wing_spike hE hp hT w ew hw1 hw2 nw hnw hf st.heap (ids 2) none (f 2 (by norm_num)) g _ k1 k2 M c' hm

/-- C111 is violated for the D-21: for all its dimensions `analyse` reports negative volumes for fuselage and nose, whose lines run from nose to base,
and no volume for the wing, which is added with its reflection. -/
theorem C111_d21_violated (ptan : ℝ → ℝ) (hT : FloatTan ptan) (h : Heap) (ids : ℕ → ℕ) (hi : Function.Injective ids) (nw nt : ℕ) (hnw : 1 ≤ nw)
    (hnt : 1 ≤ nt) (kwargs : Dict String ℝ) (p : D21.Params) (ha : D21Args kwargs p) (hp : D21Ok p) (hc : D21Coarse p nw) (lib : Lib)
    (hl : NumpyStl lib) (depth : ℕ) (dens : Dict String ℝ) :
    ∃ st st', D21.instanceOf bisect01 ptan h ids nw nt kwargs = .ok st ∧ generate lib depth st = (.ok (), st') ∧
      (lib = numpyStl → (∀ e ∈ d21Names ids, ∃ ρ, dens.get? e.1 = some ρ) → ∃ a st'', analyse lib (depth + 1) st' dens = (.ok a, st'')) ∧
      ∀ a st'', analyse lib (depth + 1) st' dens = (.ok a, st'') →
        (∀ name, name = "revolved_1" ∨ name = "revolved_2" → ∃ q, (name, q) ∈ a.components ∧ q.props.volume < 0) ∧
        ∃ q, ("wing_1", q) ∈ a.components ∧ q.props.volume = 0 ∧ q.props.mass = 0 := by
  obtain ⟨st, b1, b2, b3, b4⟩ := d21_meshes ptan hT h ids hi nw nt hnw hnt kwargs p ha hp
  obtain ⟨st', g1, g2, g3⟩ := b4 st lib depth ⟨rfl, fun k => .inl rfl⟩ (by
    intro n hn'
    rw [b3 2 (by norm_num)] at hn'
    have : nw = n := by simpa [D21.res0] using hn'
    rw [← this]; exact hc)
  have hv : st'.veh.named = d21Names ids := by rw [g2]; exact b2
  refine ⟨st, st', b1, g1, ?_, fun a st'' hAn => ?_⟩
  · rintro rfl hd
    refine analyse_total st' dens depth (by rw [g2]) (by rw [hv]; simp [d21Names]) ?_ (by rw [hv]; exact hd)
    intro e he
    rw [hv] at he
    have : ∃ i < 6, e.2 = ids i := by
      simp only [d21Names, List.mem_cons, List.not_mem_nil, or_false] at he
      rcases he with rfl | rfl | rfl | rfl | rfl | rfl
      exacts [⟨0, by norm_num, rfl⟩, ⟨1, by norm_num, rfl⟩, ⟨2, by norm_num, rfl⟩, ⟨3, by norm_num, rfl⟩, ⟨4, by norm_num, rfl⟩,
        ⟨5, by norm_num, rfl⟩]
    obtain ⟨i, h6, e'⟩ := this
    obtain ⟨n, M, c', -, -, h1, -⟩ := g3 i h6
    exact ⟨M, c', by rw [e']; exact h1⟩
  · have hc := (C76_sums lib depth st' st'' dens a (by rw [g2]) hAn).components
    rw [hv] at hc
    have rev : ∀ i, ∀ name, i = 0 ∨ i = 1 → (name, ids i) ∈ d21Names ids → ∃ q, (name, q) ∈ a.components ∧ q.props.volume < 0 := by
      intro i name hi' hm
      obtain ⟨x, hx, z, M, c, ρ, y, -, q, -⟩ := forall₂_right hc hm
      have : ∃ M c', (st'.heap (ids i)).mesh = (.ok M, c') ∧ Closed M.tris ∧ signedVolume M.tris < 0 := by
        rcases hi' with rfl | rfl
        · obtain ⟨n, M, c', r, -, h1, h2, h3⟩ := g3 0 (by norm_num)
          have : n = 20 := by rw [b3 0 (by norm_num)] at r; simpa [D21.res0] using r.symm
          exact ⟨M, c', h1, h2, h3 (by omega)⟩
        · obtain ⟨n, M, c', r, -, h1, h2, h3⟩ := g3 1 (by norm_num)
          have : n = 20 := by rw [b3 1 (by norm_num)] at r; simpa [D21.res0] using r.symm
          exact ⟨M, c', h1, h2, h3 (by omega)⟩
      obtain ⟨M', c', h1, h2, h3⟩ := this
      refine ⟨x.2, ?_, ?_⟩
      · rw [show name = x.1 from z.symm]; exact hx
      · rw [h1] at y
        obtain rfl := Except.ok.inj (Prod.mk.inj y).1
        rw [(C111_component lib hl M' h2 _ _ q).1]
        exact h3
    refine ⟨?_, ?_⟩
    · rintro name (rfl | rfl)
      · exact rev 0 _ (.inl rfl) (by simp [d21Names])
      · exact rev 1 _ (.inr rfl) (by simp [d21Names])
    · obtain ⟨x, hx, z, M, c, ρ, y, -, q, -⟩ := forall₂_right hc (a := ("wing_1", ids 2)) (by simp [d21Names])
      obtain ⟨n, M', c', -, -, h1, -, F, h3⟩ := g3 2 (by norm_num)
      refine ⟨x.2, ?_, ?_⟩
      · rw [show "wing_1" = x.1 from z.symm]; exact hx
      · rw [h1] at y
        obtain rfl := Except.ok.inj (Prod.mk.inj y).1
        exact C111_reflected_violated lib hl M' F 1 h3 _ _ q

/-- The D-21 without arguments. -/
noncomputable def d21Default : D21.Params := ⟨1, 20, 16, 5, 0⟩

theorem d21Default_ok : D21Args [] d21Default ∧ D21Ok d21Default := by
  constructor
  · constructor <;> first | exact List.nodup_nil | exact .inr ⟨by simp, rfl⟩
  · constructor <;> (simp only [d21Default]; norm_num)

/-- Without arguments a wing of at most four cells a side is coarse. -/
theorem d21Default_coarse (n : ℕ) (h : n ≤ 4) : D21Coarse d21Default n := by
  have h' : (n : ℝ) ≤ 4 := by exact_mod_cast h
  unfold D21Coarse
  simp only [d21Default]
  have : (6 : ℝ) ≤ √((0.4 * 16 - 0.3) ^ 2 + (0.35 * 5) ^ 2) := Real.le_sqrt_of_sq_le (by norm_num)
  norm_num at this ⊢
  linarith

/-- Without arguments a wing of more than four cells a side is fine. -/
theorem d21Default_fine (n : ℕ) (h : 5 ≤ n) : D21Fine d21Default n := by
  have h' : (5 : ℝ) ≤ n := by exact_mod_cast h
  unfold D21Fine
  simp only [d21Default]
  have : √((0.4 * 16 - 0.3) ^ 2 + 4 / 3 * (0.35 * 5) ^ 2) ≤ (6.5 : ℝ) := Real.sqrt_le_sqrt_iff (by norm_num) |>.2 (by norm_num) |>.trans
    (by rw [Real.sqrt_sq (by norm_num)] : √((6.5 : ℝ) ^ 2) ≤ 6.5)
  norm_num at this ⊢
  linarith

/-- The default D-21, which is twenty metres long, with a wing of five cells a side: a vertex 149 metres off. -/
example (h : Heap) : ∃ st, D21.instanceOf bisect01 ieeeTan h id 5 3 [] = .ok st ∧
    ∀ lib depth st' M c', generate lib depth st = (.ok (), st') → (st'.heap 2).mesh = (.ok M, c') → ∃ v, IsVertex v M.tris ∧ 149 ≤ v.z := by
  obtain ⟨st, h1, -, h2⟩ := C120_d21_wing_violated ieeeTan ieeeTan_float h id Function.injective_id 5 3 (by norm_num) [] _ d21Default_ok.1 d21Default_ok.2
    (d21Default_fine 5 le_rfl)
  refine ⟨st, h1, fun lib depth st' M c' h3 h4 => ?_⟩
  obtain ⟨v, k1, -, k2⟩ := h2 lib depth st' M c' h3 h4
  refine ⟨v, k1, le_trans ?_ k2⟩
  norm_num [d21Default]

example (h : Heap) (lib : Lib) (depth : ℕ) : ∃ st st', D21.instanceOf bisect01 ieeeTan h id 3 3 [] = .ok st ∧ generate lib depth st = (.ok (), st') ∧
    ∃ j M c', ("fin_3", j) ∈ st'.veh.named ∧ (st'.heap j).mesh = (.ok M, c') ∧ ¬ ClosedUpTo 0.05 M.tris := by
  obtain ⟨st, st', h1, h2, h3⟩ := C120_d21_violated ieeeTan ieeeTan_float h id Function.injective_id 3 3 (by norm_num) (by norm_num) [] _
    d21Default_ok.1 d21Default_ok.2 (d21Default_coarse 3 (by norm_num)) (by norm_num) 0.05
    (by constructor <;> norm_num [d21Default]) lib depth
  exact ⟨st, st', h1, h2, h3 "fin_3" (.inr rfl)⟩

example (h : Heap) (depth : ℕ) : ∃ st st' a st'', D21.instanceOf bisect01 ieeeTan h id 3 3 [] = .ok st ∧ generate numpyStl depth st = (.ok (), st') ∧
    analyse numpyStl (depth + 1) st' ((d21Names id).map fun e => (e.1, 1)) = (.ok a, st'') ∧ ∃ q, ("revolved_1", q) ∈ a.components ∧ q.props.volume < 0 := by
  obtain ⟨st, st', h1, h2, h3, h4⟩ := C111_d21_violated ieeeTan ieeeTan_float h id Function.injective_id 3 3 (by norm_num) (by norm_num) [] _
    d21Default_ok.1 d21Default_ok.2 (d21Default_coarse 3 (by norm_num)) numpyStl numpyStl_ok depth ((d21Names id).map fun e => (e.1, 1))
  obtain ⟨a, st'', k⟩ := h3 rfl (by
    intro e he
    simp only [d21Names, List.mem_cons, List.not_mem_nil, or_false] at he
    rcases he with rfl | rfl | rfl | rfl | rfl | rfl <;> exact ⟨1, by simp [d21Names, Dict.get?]⟩)
  exact ⟨st, st', a, st'', h1, h2, k, (h4 a st'' k).1 _ (.inl rfl)⟩

example (h : Heap) (lib : Lib) (depth : ℕ) : ∃ st st', D21.instanceOf bisect01 ieeeTan h id 3 3 [] = .ok st ∧ generate lib depth st = (.ok (), st') ∧
    (∃ M c', (st'.heap 1).mesh = (.ok M, c') ∧ Closed M.tris) ∧ ∃ M c', (st'.heap 2).mesh = (.ok M, c') ∧ GapFree 1e-12 M.tris := by
  obtain ⟨st, h1, -, h3, h2⟩ := C120_d21_partial ieeeTan ieeeTan_float h id Function.injective_id 3 3 (by norm_num) (by norm_num) [] _
    d21Default_ok.1 d21Default_ok.2
  obtain ⟨st', g1, g2⟩ := h2 st lib depth ⟨rfl, fun k => .inl rfl⟩ (by
    intro n hn
    rw [h3] at hn
    exact d21Default_coarse n (by have : 3 = n := by simpa using hn
                                  omega))
  exact ⟨st, st', h1, g1, g2.fuselage 1 (by simp), g2.wing⟩

end HV
