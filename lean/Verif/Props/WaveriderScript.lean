import Verif.Props.Merge
import Verif.Props.Waverider
import Verif.Props.Settings

/-!
# C144: the script of the waverider
-/

namespace HV
open Spec Veh

theorem addAll_name (l : List (ℕ × AddOpts)) : ∀ (st st' : VState), addAll st l = .ok st' → st'.veh.name = st.veh.name := by
  induction l with
  | nil => intro st st' h; cases h; rfl
  | cons e l ih =>
    intro st st' h
    obtain ⟨id, o⟩ := e
    unfold addAll at h
    have hs := addComponent_settings st id o
    rcases hx : addComponent st id o with ⟨x | x, st1⟩ <;> rw [hx] at h hs
    · simp at h
    · rw [ih _ _ h]
      exact congrArg (fun s => s.2.2.1) hs

/-- The generator of the waverider names its vehicle. -/
theorem waverider_name (bis : (ℝ → Res ℝ) → Res ℝ) (ptan : ℝ → ℝ) (h : Heap) (ids : ℕ → ℕ) (nf nw nt : ℕ) (kwargs : Dict String ℝ) (st : VState)
    (hst : Waverider.instanceOf bis ptan h ids nf nw nt kwargs = .ok st) : st.veh.name = "waverider" := by
  unfold Waverider.instanceOf Waverider.createInstance at hst
  obtain ⟨p, -, hst⟩ := bind_ok.1 hst
  obtain ⟨line, -, hst⟩ := bind_ok.1 hst
  obtain ⟨w, -, hst⟩ := bind_ok.1 hst
  obtain ⟨a, -, hst⟩ := bind_ok.1 hst
  obtain ⟨f, -, hst⟩ := bind_ok.1 hst
  obtain ⟨s1, h1, hst⟩ := bind_ok.1 hst
  obtain ⟨s2, h2, hst⟩ := bind_ok.1 hst
  obtain rfl := pure_ok.1 hst
  have e1 := addAll_name _ _ _ h1
  have e2 := addAll_name _ _ _ h2
  show s2.veh.name = _
  rw [e2]
  exact e1

open Waverider in
/-- C144 for the script of the waverider: with PyMesh installed it writes `fuselage.stl`, `wings.stl`, `right_flap.stl`, `left_flap.stl` and `fin.stl`, each
watertight as in C109, and `waverider.stl`, the surface of which is that of the five together, whatever is on disk before. -/
theorem C144_waverider (pm : PyMesh) (hk : KeepsSurface pm) (d : StlDisk) (ptan : ℝ → ℝ) (hT : FloatTan ptan) (h : Heap) (ids : ℕ → ℕ)
    (hi : Function.Injective ids) (nf nw nt : ℕ) (hf : 1 ≤ nf) (hw : 1 ≤ nw) (ht : 1 ≤ nt) (kwargs : Dict String ℝ) (p : Waverider.Params)
    (ha : WaveriderArgs kwargs p) (hp : WaveriderOk p) (lib : Lib) (depth : ℕ) :
    ∃ st d' st' m0 m1 m2 m3 m4 m, Waverider.instanceOf bisect01 ptan h ids nf nw nt kwargs = .ok st ∧
      saveOnDisk (some pm) d lib depth none (.bool true) st = (.ok (), d', st') ∧
      (d' "fuselage.stl" = some m0 ∧ Closed m0) ∧ (d' "wings.stl" = some m1 ∧ GapFree (waveriderFactor p * 1e-12) m1) ∧
      (d' "right_flap.stl" = some m2 ∧ ClosedUpTo (waveriderFactor p * 1e-12) m2) ∧
      (d' "left_flap.stl" = some m3 ∧ ClosedUpTo (waveriderFactor p * 1e-12) m3) ∧
      (d' "fin.stl" = some m4 ∧ ClosedUpTo (waveriderFactor p * 2e-7) m4) ∧
      (d' "waverider.stl" = some m ∧ ∀ q, OnMesh m q ↔ OnMesh m0 q ∨ OnMesh m1 q ∨ OnMesh m2 q ∨ OnMesh m3 q ∨ OnMesh m4 q) ∧
      ∀ f, f ∉ ["fuselage.stl", "wings.stl", "right_flap.stl", "left_flap.stl", "fin.stl", "waverider.stl"] → d' f = d f := by
  obtain ⟨y2, y3, el, l3, l32, l2⟩ := edge_ok hp
  obtain ⟨w, ew, -⟩ := wings_mesh hp l3 l32 l2 hT
  obtain ⟨a, f, ea, ef, -⟩ := flaps_mesh hp l3 l32 l2 hT
  obtain ⟨st, b1, b2, b3, -, -, -, f0, f1, f2, f3, f4⟩ := waverider_instance ptan h ids hi nf nw nt kwargs p ha _ w a f el ew ea ef
  obtain ⟨st0, c1, c2, c3⟩ := C109_waverider ptan hT h ids hi nf nw nt hf hw ht kwargs p ha hp
  rw [b1] at c1
  obtain rfl := Except.ok.inj c1
  obtain ⟨st1, g, hM⟩ := c3 st lib depth ⟨rfl, fun _ => .inl rfl⟩
  have hname := waverider_name _ _ _ _ _ _ _ _ _ b1
  have hexec : (exec lib depth st .generate).2 = st1 := by simp [exec, g]
  have hv : blueprint st1.veh = blueprint st.veh := by rw [← hexec]; exact C131_work lib depth st .generate trivial
  have v1 : st1.veh.named = [("fuselage", ids 0), ("wings", ids 1), ("right_flap", ids 2), ("left_flap", ids 3), ("fin", ids 4)] := by
    rw [← c2]; exact (congrArg (fun v : Veh => v.named) hv : (blueprint st1.veh).named = (blueprint st.veh).named)
  have v2 : st1.veh.components = (List.range 5).map ids := by rw [← b2]; exact (congrArg (fun v : Veh => v.components) hv : (blueprint st1.veh).components = (blueprint st.veh).components)
  have v3 : st1.veh.name = "waverider" := by rw [← hname]; exact (congrArg (fun v : Veh => v.name) hv : (blueprint st1.veh).name = (blueprint st.veh).name)
  have hset : ∀ k, Spec.settings (st1.heap k) = Spec.settings (st.heap k) := by
    intro k
    rw [← hexec]
    exact C134_call lib depth st .generate k (by simp [SetsOn])
  have hng : ∀ k, (st1.heap k).name = (st.heap k).name ∧ (st1.heap k).ghost = (st.heap k).ghost := fun k =>
    ⟨(congrArg (fun c : Comp => c.name) (hset k) : (Spec.settings (st1.heap k)).name = (Spec.settings (st.heap k)).name),
      (congrArg (fun c : Comp => c.ghost) (hset k) : (Spec.settings (st1.heap k)).ghost = (Spec.settings (st.heap k)).ghost)⟩
  obtain ⟨M0, c0, q0, z0⟩ := hM.fuselage
  obtain ⟨M1, c1', q1, z1⟩ := hM.wings
  obtain ⟨M2, c2', q2, z2⟩ := hM.flaps 2 (.inl rfl)
  obtain ⟨M3, c3', q3, z3⟩ := hM.flaps 3 (.inr rfl)
  obtain ⟨M4, c4', q4, z4⟩ := hM.fin
  have tag : ∀ e ∈ st1.veh.named, (st1.heap e.2).name = some e.1 ∧ e.1 ≠ "" ∧ (st1.heap e.2).ghost = false := by
    intro e he
    rw [v1] at he
    rw [(hng _).1, (hng _).2]
    simp only [List.mem_cons, List.not_mem_nil, or_false] at he
    rcases he with rfl | rfl | rfl | rfl | rfl
    · exact ⟨by rw [f0]; rfl, by simp, by rw [f0]; rfl⟩
    · exact ⟨by rw [f1]; rfl, by simp, by rw [f1]; rfl⟩
    · exact ⟨by rw [f2]; rfl, by simp, by rw [f2]; rfl⟩
    · exact ⟨by rw [f3]; rfl, by simp, by rw [f3]; rfl⟩
    · exact ⟨by rw [f4]; rfl, by simp, by rw [f4]; rfl⟩
  obtain ⟨d', st', r1, r2, ⟨m, r3, r4⟩, r5⟩ := C144_partial pm hk d st1 none (.inl rfl) (by
    intro k hk' _
    rw [v2, List.mem_map] at hk'
    obtain ⟨i, hi', rfl⟩ := hk'
    rw [List.mem_range] at hi'
    interval_cases i
    · exact ⟨_, _, q0⟩
    · exact ⟨_, _, q1⟩
    · exact ⟨_, _, q2⟩
    · exact ⟨_, _, q3⟩
    · exact ⟨_, _, q4⟩) (by rw [v1, v2]; rfl) (fun e he => ⟨(tag e he).1, (tag e he).2.1⟩) (by rw [v1]; simp [Dict.keys])
  have file : ∀ e ∈ st1.veh.named, e.1 ≠ "waverider" → ∀ M c, (st1.heap e.2).mesh = (.ok M, c) → d' (e.1 ++ ".stl") = some M.tris := by
    intro e he hne M c hMe
    obtain ⟨M', c', h1, h2⟩ := r2 e he (tag e he).2.2 (by rw [v3]; exact hne)
    rw [hMe] at h1
    obtain rfl := Except.ok.inj (Prod.mk.inj h1).1
    exact h2
  rw [v3] at r3 r5
  refine ⟨st, d', st', M0.tris, M1.tris, M2.tris, M3.tris, M4.tris, m, b1, by unfold saveOnDisk; rw [g]; exact r1,
    ⟨file ("fuselage", ids 0) (by rw [v1]; simp) (by simp) _ _ q0, z0⟩, ⟨file ("wings", ids 1) (by rw [v1]; simp) (by simp) _ _ q1, z1⟩,
    ⟨file ("right_flap", ids 2) (by rw [v1]; simp) (by simp) _ _ q2, z2⟩, ⟨file ("left_flap", ids 3) (by rw [v1]; simp) (by simp) _ _ q3, z3⟩,
    ⟨file ("fin", ids 4) (by rw [v1]; simp) (by simp) _ _ q4, z4⟩, ⟨r3, fun q => ?_⟩, fun f hf => ?_⟩
  · rw [r4]
    constructor
    · rintro ⟨e, he, -, M, c, hMe, hq⟩
      rw [v1] at he
      simp only [List.mem_cons, List.not_mem_nil, or_false] at he
      rcases he with rfl | rfl | rfl | rfl | rfl <;> simp only at hMe
      · rw [q0] at hMe; obtain rfl := Except.ok.inj (Prod.mk.inj hMe).1; exact .inl hq
      · rw [q1] at hMe; obtain rfl := Except.ok.inj (Prod.mk.inj hMe).1; exact .inr (.inl hq)
      · rw [q2] at hMe; obtain rfl := Except.ok.inj (Prod.mk.inj hMe).1; exact .inr (.inr (.inl hq))
      · rw [q3] at hMe; obtain rfl := Except.ok.inj (Prod.mk.inj hMe).1; exact .inr (.inr (.inr (.inl hq)))
      · rw [q4] at hMe; obtain rfl := Except.ok.inj (Prod.mk.inj hMe).1; exact .inr (.inr (.inr (.inr hq)))
    · intro hq
      have en : ∀ e ∈ st1.veh.named, ∀ M c, (st1.heap e.2).mesh = (.ok M, c) → OnMesh M.tris q →
          ∃ e ∈ st1.veh.named, (st1.heap e.2).ghost = false ∧ ∃ M c, (st1.heap e.2).mesh = (.ok M, c) ∧ OnMesh M.tris q :=
        fun e he M c h1 h2 => ⟨e, he, (tag e he).2.2, M, c, h1, h2⟩
      rcases hq with hq | hq | hq | hq | hq
      · exact en ("fuselage", ids 0) (by rw [v1]; simp) _ _ q0 hq
      · exact en ("wings", ids 1) (by rw [v1]; simp) _ _ q1 hq
      · exact en ("right_flap", ids 2) (by rw [v1]; simp) _ _ q2 hq
      · exact en ("left_flap", ids 3) (by rw [v1]; simp) _ _ q3 hq
      · exact en ("fin", ids 4) (by rw [v1]; simp) _ _ q4 hq
  · simp only [List.mem_cons, List.not_mem_nil, or_false, not_or] at hf
    refine r5 f hf.2.2.2.2.2 ?_
    rw [v1]
    intro e he
    simp only [List.mem_cons, List.not_mem_nil, or_false] at he
    rcases he with rfl | rfl | rfl | rfl | rfl
    · exact hf.1
    · exact hf.2.1
    · exact hf.2.2.1
    · exact hf.2.2.2.1
    · exact hf.2.2.2.2.1

/-- The waverider without arguments meets the hypotheses. -/
example (d : StlDisk) (h : Heap) (lib : Lib) (depth : ℕ) : ∃ st d' st', Waverider.instanceOf bisect01 ieeeTan h id 30 30 4 [] = .ok st ∧
    saveOnDisk (some plainPyMesh) d lib depth none (.bool true) st = (.ok (), d', st') := by
  obtain ⟨st, d', st', m0, m1, m2, m3, m4, m, h1, h2, -⟩ := C144_waverider plainPyMesh plainPyMesh_keeps d ieeeTan ieeeTan_float h id
    Function.injective_id 30 30 4 (by norm_num) (by norm_num) (by norm_num) [] waveriderDefault waveriderDefault_ok.1 waveriderDefault_ok.2 lib depth
  exact ⟨st, d', st', h1, h2⟩

end HV
