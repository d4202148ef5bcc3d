import Verif.Props.Mirror
import Verif.Lemmas.Reflected
import Verif.Lemmas.GenerateTotal

/-!
# Property C129: a part and its mirror image added as documented
-/

namespace HV
open Spec Veh

/-- The first moment of a part moved along `z`. -/
theorem firstMoment_moved {m : TriMesh ℝ} (h : Closed m) (δ : ℝ) :
    (firstMoment (mapVerts (fun p => ⟨p.x, p.y, p.z + δ⟩) m)).z = (firstMoment m).z + signedVolume m * δ := by
  have e : signedVolume m * δ = (m.map fun t => det3 t.v0 t.v1 t.v2 / 6 * δ).sum := by
    unfold signedVolume
    rw [List.sum_map_mul_right]
  have e2 : (firstMoment m).z + signedVolume m * δ =
      (m.map fun t => det3 t.v0 t.v1 t.v2 / 6 * ((t.v0.z + t.v1.z + t.v2.z) / 4) + det3 t.v0 t.v1 t.v2 / 6 * δ).sum := by
    rw [e, List.sum_map_add]
    rfl
  rw [e2]
  simp only [firstMoment, mapVerts, List.map_map]
  refine closed_sum h (φ := fun u v => δ * (u.z + v.z + 3 * δ) * (u.x * v.y - u.y * v.x) / 24) (fun a b => by ring) fun t => ?_
  simp only [Function.comp, det3]
  ring

/-- The first moment, in the direction of the axis, of a mirrored part that is inside out. -/
theorem firstMoment_mirrorV (k : Fin 3) (m : TriMesh ℝ) : coord (firstMoment (mapVerts (mirrorV k) m)) k = coord (firstMoment m) k := by
  rw [firstMoment_coord, firstMoment_coord, mapVerts, List.map_map]
  congr 1
  apply List.map_congr_left
  intro t _
  have e : det3 (mirrorV k t.v0) (mirrorV k t.v1) (mirrorV k t.v2) = -det3 t.v0 t.v1 t.v2 := by
    fin_cases k <;> simp [det3, mirrorV] <;> ring
  simp only [Function.comp, e, coord_mirrorV, if_true]
  ring

/-- C129 is violated by symmetric vehicles with a part added twice, once with a reflection axis and `append_reflection=False`: whatever the densities
`ρ₀` of the symmetric body and `ρ` of the two parts, the reported mass is that of the body alone, and the reported centre of gravity is off the
plane of symmetry by twice the first moment of the part, divided by the mass of the body. -/
theorem C129_reflected_violated (lib : Lib) (hl : NumpyStl lib) (depth : ℕ) (st st' : VState) (dens : Dict String ℝ) (a : Analysis)
    (hg : st.veh.generated = true) (h : analyse lib (depth + 1) st dens = (.ok a, st')) (B F : TriMesh ℝ) (ρ₀ ρ : ℝ) (k : Fin 3)
    (hb : List.Forall₂ (Solid dens st.heap) st.veh.named [(ρ₀, B), (ρ, F), (ρ, mapVerts (mirrorV k) F)])
    (hs : MirrorSymmetric k B) (hB : signedVolume B ≠ 0) (hF : signedVolume F ≠ 0) (h0 : ρ₀ ≠ 0) (h1 : ρ ≠ 0) (hm : coord (firstMoment F) k ≠ 0) :
    a.mass = ρ₀ * signedVolume B ∧ ∃ q, a.cog = some q ∧ coord q k = 2 * ρ * coord (firstMoment F) k / (ρ₀ * signedVolume B) ∧ coord q k ≠ 0 := by
  obtain ⟨-, h2, h3⟩ := C111_vehicle_partial lib hl depth st st' dens a hg h _ hb
  simp only [List.map_cons, List.map_nil, List.sum_cons, List.sum_nil, signedVolume_mirrorV] at h2
  have hmass : a.mass = ρ₀ * signedVolume B := by rw [h2]; ring
  have hne : a.mass ≠ 0 := by rw [hmass]; exact mul_ne_zero h0 hB
  refine ⟨hmass, _, h3 hne (by simpa [signedVolume_mirrorV] using ⟨hB, hF⟩), ?_⟩
  have e : coord (weightedMean ([(ρ₀, B), (ρ, F), (ρ, mapVerts (mirrorV k) F)].map fun b => (b.1 * signedVolume b.2, centroid b.2))) k =
      2 * ρ * coord (firstMoment F) k / (ρ₀ * signedVolume B) := by
    rw [coord_weightedMean]
    simp only [List.map_cons, List.map_nil, List.sum_cons, List.sum_nil, centroid, coord_mul, firstMoment_mirror hs, firstMoment_mirrorV,
      signedVolume_mirrorV]
    congr 1
    · field_simp
      ring
    · ring
  rw [e]
  exact ⟨rfl, div_ne_zero (mul_ne_zero (mul_ne_zero two_ne_zero h1) hm) (mul_ne_zero h0 hB)⟩

/-! ## A vehicle -/

/-- The sections of a part with a diamond profile between `z = a` and `z = b`. -/
noncomputable def diamond (a b : ℝ) : List (List PathObj) := [a, b].map (quadSection (wedgeX 1) (wedgeY 1))

/-- A body from `z = -1` to `z = 1` and two equal parts from `z = 1` to `z = 3`. -/
noncomputable def pairHeap (n : ℕ) : Heap := fun k =>
  if k = 0 then Swept.comp (diamond 1 (-1)) 4 true (.int n) none else Swept.comp (diamond 3 1) 4 true (.int n) none

/-- The body, the part, and the part reflected in `z` without keeping the original. -/
def pairOpts : List (ℕ × AddOpts) :=
  [(0, { name := some "body" }), (1, { name := some "right" }), (2, { name := some "left", reflection_axis := some "z", append_reflection := false })]

theorem diamond_mesh (a b : ℝ) (n : ℕ) (hn : 1 ≤ n) (hp : Heap) (id : ℕ) (hid : hp id = Swept.comp (diamond a b) 4 true (.int n) none) :
    ∃ h' M c', generatePatches hp id = (.ok (), h') ∧ (h' id).mesh = (.ok M, c') ∧ Closed M.tris ∧ signedVolume M.tris = (a - b) / 2 := by
  obtain ⟨c, i1, hh⟩ := extrusion_mesh (quad_extrusion (wedgeX 1) (wedgeY 1) [a, b]) (by simp)
    (fun ne hne => ⟨quad_closes _ ne hne, quad_closes _ ne hne⟩) a b rfl rfl n hn none
  have e : c = Swept.comp (diamond a b) 4 true (.int n) none := by
    unfold Swept.init at i1
    have : SweptPatch.getIdx ([a, b].map (quadSection (wedgeX 1) (wedgeY 1))) 0 = .ok (quadSection (wedgeX 1) (wedgeY 1) a) := rfl
    rw [this, ok_bind, bind_ok] at i1
    obtain ⟨u, -, hu⟩ := i1
    cases hu
    rfl
  subst e
  obtain ⟨h', M, c', g1, g2, g3, g4⟩ := hh hp id hid
  refine ⟨h', M, c', g1, g2, g3, ?_⟩
  rw [g4, C96_quadrilateral _ _ n hn]
  simp [wedgeX, wedgeY]
  ring

theorem diamond_init (a b : ℝ) (n : ℕ) (hn : 1 ≤ n) :
    Swept.init (diamond a b) true (.int n) none = .ok (Swept.comp (diamond a b) 4 true (.int n) none) := by
  obtain ⟨c, i1, -⟩ := extrusion_mesh (quad_extrusion (wedgeX 1) (wedgeY 1) [a, b]) (by simp)
    (fun ne hne => ⟨quad_closes _ ne hne, quad_closes _ ne hne⟩) a b rfl rfl n hn none
  have i2 := i1
  unfold Swept.init at i1
  have : SweptPatch.getIdx ([a, b].map (quadSection (wedgeX 1) (wedgeY 1))) 0 = .ok (quadSection (wedgeX 1) (wedgeY 1) a) := rfl
  rw [this, ok_bind, bind_ok] at i1
  obtain ⟨u, -, hu⟩ := i1
  cases hu
  exact i2

/-- The mesh of the body is symmetric, and that of the part is the mesh of the body moved by 2. -/
theorem pair_meshes (n : ℕ) (hn : 1 ≤ n) (hp hq : Heap) (id jd : ℕ) (hid : hp id = Swept.comp (diamond 1 (-1)) 4 true (.int n) none)
    (hjd : hq jd = Swept.comp (diamond 3 1) 4 true (.int n) none) :
    ∃ g M d g' M' d', generatePatches hp id = (.ok (), g) ∧ (g id).mesh = (.ok M, d) ∧ generatePatches hq jd = (.ok (), g') ∧
      (g' jd).mesh = (.ok M', d') ∧ Closed M.tris ∧ MirrorSymmetric 2 M.tris ∧ signedVolume M.tris = 1 ∧
      M'.tris = mapVerts (fun p => ⟨p.x, p.y, p.z + 2⟩) M.tris ∧ Closed M'.tris ∧ signedVolume M'.tris = 1 := by
  have hex := quad_extrusion (wedgeX 1) (wedgeY 1) [1, -1]
  have hcl := hex.closed fun ne hne => ⟨quad_closes _ ne hne, quad_closes _ ne hne⟩
  have hrev : SectionsImage (mirrorV 2) (diamond 1 (-1)) (diamond 1 (-1)).reverse := by
    unfold SectionsImage diamond quadSection
    simp only [List.map_cons, List.map_nil, List.reverse_cons, List.reverse_nil, List.nil_append, List.cons_append, List.forall₂_cons, List.Forall₂.nil,
      and_true]
    refine ⟨⟨?_, ?_, ?_, ?_⟩, ?_, ?_, ?_, ?_⟩ <;> intro s _ _ q hq <;> simp only [Line, lineAt] at hq ⊢ <;> cases hq <;>
      rw [Except.ok.injEq] <;> ext <;> simp [mirrorV, wedgeX, wedgeY] <;> ring
  have hmov : SectionsImage (fun p => ⟨p.x, p.y, p.z + 2⟩) (diamond 1 (-1)) (diamond 3 1) := by
    unfold SectionsImage diamond quadSection
    simp only [List.map_cons, List.map_nil, List.forall₂_cons, List.Forall₂.nil, and_true]
    refine ⟨⟨?_, ?_, ?_, ?_⟩, ?_, ?_, ?_, ?_⟩ <;> intro s _ _ q hq <;> simp only [Line, lineAt] at hq ⊢ <;> cases hq <;>
      rw [Except.ok.injEq] <;> ext <;> simp [wedgeX, wedgeY] <;> ring
  have haff : IsAffine (fun p => ⟨p.x, p.y, p.z + 2⟩) 1 := by
    refine ⟨![0, 0, 2], fun p => ?_⟩
    rw [Matrix.one_mulVec]
    funext i
    fin_cases i <;> simp [toF]
  obtain ⟨c, i1, hh⟩ := C129_swept 2 (diamond 1 (-1)) hrev le_rfl hex.len hex.total hcl (.int n) n n (.inl ⟨rfl, rfl⟩) hn hn none
  rw [diamond_init _ _ n hn] at i1
  obtain rfl := Except.ok.inj i1
  obtain ⟨c, c', i1, i2, hA⟩ := C123_swept haff hmov le_rfl hex.len hex.total hcl (.int n) n n (.inl ⟨rfl, rfl⟩) hn hn none
  rw [diamond_init _ _ n hn] at i1 i2
  obtain rfl := Except.ok.inj i1
  obtain rfl := Except.ok.inj i2
  obtain ⟨g, M, d, g', M', d', k1, k2, k3, k4, k5⟩ := hA hp hq id jd hid hjd
  obtain ⟨x, N, y, l1, l2, l3, l4⟩ := hh hp id hid
  rw [k1] at l1
  obtain rfl := (Prod.mk.inj l1).2
  rw [k2] at l2
  obtain rfl := Except.ok.inj (Prod.mk.inj l2).1
  obtain ⟨x, N, y, m1, m2, m3, m4⟩ := diamond_mesh 1 (-1) n hn hp id hid
  rw [k1] at m1
  obtain rfl := (Prod.mk.inj m1).2
  rw [k2] at m2
  obtain rfl := Except.ok.inj (Prod.mk.inj m2).1
  obtain ⟨x, N, y, p1, p2, p3, p4⟩ := diamond_mesh 3 1 n hn hq jd hjd
  rw [k3] at p1
  obtain rfl := (Prod.mk.inj p1).2
  rw [k4] at p2
  obtain rfl := Except.ok.inj (Prod.mk.inj p2).1
  exact ⟨g, M, d, g', M', d', k1, k2, k3, k4, m3, l4, by rw [m4]; norm_num, k5, p3, by rw [p4]; norm_num⟩

/-- The patch names of a swept component with four edges. -/
theorem swept_names (S : List (List PathObj)) (h2 : 2 ≤ S.length) (hlen : ∀ cs ∈ S, cs.length = 4) (htot : EdgesTotal S) (hcl : ExactlyClosed S)
    (n : ℕ) (hn : 1 ≤ n) (c : Comp) (hc : Swept.init S true (.int n) none = .ok c) (hp g : Heap) (id : ℕ) (hid : hp id = c)
    (hg : generatePatches hp id = (.ok (), g)) : (g id).patches.map Prod.fst =
      ["swept_patch_0", "swept_patch_1", "swept_patch_2", "swept_patch_3", "swept_patch_end_0", "swept_patch_end_1"] := by
  obtain ⟨c', i1, hh⟩ := closed_swept_mesh S S[0] S[S.length - 1] (List.getElem?_eq_getElem (by omega))
    (List.getElem?_eq_getElem (by omega)) h2 hlen htot hcl (.int n) n n (.inl ⟨rfl, rfl⟩) hn hn none
  rw [hc] at i1
  obtain rfl := Except.ok.inj i1
  obtain ⟨g', M, d, g1, -, -, F0, F1, -, -, -, -, -, f5, -⟩ := hh hp id hid
  rw [hg] at g1
  obtain rfl := (Prod.mk.inj g1).2
  rw [f5]
  simp only [List.map_append, List.map_map, Function.comp_def, List.map_cons, List.map_nil]
  decide

/-- C129 is violated: three equal parts next to each other, the middle one symmetric, the right one added twice, the second time reflected as
documented.  The vehicle reaches from `z = -3` to `z = 3`; with equal densities its centre of gravity is reported at `z = 4`. -/
theorem C129_pair_violated (n : ℕ) (hn : 1 ≤ n) (lib : Lib) (hl : NumpyStl lib) (depth : ℕ) (ρ₀ ρ : ℝ) (h0 : 0 < ρ₀) (h1 : 0 < ρ) :
    ∃ st st' B F G c₁ c₂ c₃, addAll ⟨pairHeap n, {}⟩ pairOpts = .ok st ∧ generate lib depth st = (.ok (), st') ∧
      st'.veh.named = [("body", 0), ("right", 1), ("left", 2)] ∧ (st'.heap 0).mesh = (.ok B, c₁) ∧ (st'.heap 1).mesh = (.ok F, c₂) ∧
      (st'.heap 2).mesh = (.ok G, c₃) ∧ MirrorSymmetric 2 B.tris ∧ G.tris = mapVerts (mirrorV 2) F.tris ∧
      (lib = numpyStl → ∃ a st'', analyse lib (depth + 1) st' [("body", ρ₀), ("right", ρ), ("left", ρ)] = (.ok a, st'')) ∧
      ∀ a st'', analyse lib (depth + 1) st' [("body", ρ₀), ("right", ρ), ("left", ρ)] = (.ok a, st'') →
        a.mass = ρ₀ ∧ ∃ q, a.cog = some q ∧ q.z = 4 * ρ / ρ₀ := by
  obtain ⟨st, a1, a2, a3, a4⟩ := addAll_spec ⟨pairHeap n, {}⟩ pairOpts (by decide) (by
    intro e he
    have : (pairHeap n e.1).componenttype = "swept" := by unfold pairHeap; split <;> rfl
    show (pairHeap n e.1).componenttype ∈ _
    rw [this]
    simp [allowable])
  have b0 := a3 (0, { name := some "body" }) (by simp [pairOpts])
  have b1 := a3 (1, { name := some "right" }) (by simp [pairOpts])
  have b2 := a3 (2, { name := some "left", reflection_axis := some "z", append_reflection := false }) (by simp [pairOpts])
  have e1 : ∀ k, k ≠ 0 → pairHeap n k = Swept.comp (diamond 3 1) 4 true (.int n) none := fun k hk => if_neg hk
  obtain ⟨g, M, d, g', M', d', p1, p2, p3, p4, p5, p6, p7, p8, p9, p10⟩ := pair_meshes n hn (pairHeap n) (pairHeap n) 0 1 rfl (e1 1 (by norm_num))
  have hex := quad_extrusion (wedgeX 1) (wedgeY 1) [3, 1]
  have hcl := hex.closed fun ne hne => ⟨quad_closes _ ne hne, quad_closes _ ne hne⟩
  have hnames := swept_names (diamond 3 1) le_rfl hex.len hex.total hcl n hn _ (diamond_init 3 1 n hn) (pairHeap n) g' 1 (e1 1 (by norm_num)) p3
  obtain ⟨g0, x0, M0, y0, q1, q2, q3, q4⟩ := plain_leaf (pairHeap n) 0 _ rfl n hn rfl rfl rfl rfl g M d p1 p2 st.heap 0 (by rw [b0]; rfl)
    (by rw [b0]; rfl) (by rw [b0]; rfl) (by rw [b0]; rfl) (by rw [b0]; rfl) (by rw [b0]; rfl) (by rw [b0]; rfl) (by rw [b0]; rfl)
    (by rw [b0]; rfl) (by rw [b0]; rfl)
  obtain ⟨g1, x1, M1, y1, r1, r2, r3, r4⟩ := plain_leaf (pairHeap n) 1 _ rfl n hn rfl rfl rfl rfl g' M' d' p3 p4 st.heap 1 (by rw [b1]; rfl)
    (by rw [b1]; rfl) (by rw [b1]; rfl) (by rw [b1]; rfl) (by rw [b1]; rfl) (by rw [b1]; rfl) (by rw [b1]; rfl) (by rw [b1]; rfl)
    (by rw [b1]; rfl) (by rw [b1]; rfl)
  obtain ⟨g2, x2, M2, y2, s1, s2, s3, s4⟩ := reflected_leaf (pairHeap n) 1 _ rfl n hn rfl rfl rfl rfl g' M' d' p3 p4
    (by rw [hnames]; decide) st.heap 2 (by rw [b2]; rfl)
    (by rw [b2]; rfl) (by rw [b2]; rfl) (by rw [b2]; rfl) (by rw [b2]; rfl) (by rw [b2]; rfl) (by rw [b2]; rfl) (by rw [b2]; rfl)
    (by rw [b2]; rfl) "z" 2 (.inl rfl) (by rw [b2]; exact .inl rfl)
  have happ : (st.heap 2).append_reflection = false := by rw [b2]; rfl
  rw [happ] at s4
  simp only [Bool.false_eq_true, if_false, List.nil_append] at s4
  have hcs : st.veh.components = [0, 1, 2] := by rw [a2]; rfl
  have hch : ∀ k ∈ st.veh.components, (st.heap k).children = [] := by
    rw [hcs]
    intro k hk
    simp only [List.mem_cons, List.not_mem_nil, or_false] at hk
    rcases hk with rfl | rfl | rfl
    · unfold Comp.children; rw [b0]; rfl
    · unfold Comp.children; rw [b1]; rfl
    · unfold Comp.children; rw [b2]; rfl
  obtain ⟨st', t1, t2, t3⟩ := generate_plain lib depth st (by rw [a2]; rfl) (by rw [a2]; rfl) (by rw [a2]; rfl)
    (unshared_leaves _ _ (by rw [hcs]; decide) hch) (by
      rw [hcs]
      intro k hk
      simp only [List.mem_cons, List.not_mem_nil, or_false] at hk
      rcases hk with rfl | rfl | rfl
      · exact ⟨g0, x0, q1, q2⟩
      · exact ⟨g1, x1, r1, r2⟩
      · exact ⟨g2, x2, s1, s2⟩)
  have hh : ∀ k ∈ st.veh.components, ∀ g x, generatePatches st.heap k = (.ok (), g) → pipeline 0 (g k) = (.ok (), x) → st'.heap k = x := by
    intro k hk g x h1 h2
    obtain ⟨g', k1, k2⟩ := t3 k hk
    rw [h1] at k1
    obtain rfl := (Prod.mk.inj k1).2
    rw [h2] at k2
    exact (Prod.mk.inj k2).2.symm
  have z0 := hh 0 (by rw [hcs]; simp) _ _ q1 q2
  have z1 := hh 1 (by rw [hcs]; simp) _ _ r1 r2
  have z2 := hh 2 (by rw [hcs]; simp) _ _ s1 s2
  have hnamed : st'.veh.named = [("body", 0), ("right", 1), ("left", 2)] := by rw [t2, a2]; rfl
  have hsolid : List.Forall₂ (Solid [("body", ρ₀), ("right", ρ), ("left", ρ)] st'.heap) st'.veh.named
      [(ρ₀, M0.tris), (ρ, M1.tris), (ρ, mapVerts (mirrorV 2) M1.tris)] := by
    rw [hnamed]
    refine .cons ⟨M0, y0, by rw [z0]; exact q3, rfl, by rw [q4]; exact p5, by simp [Dict.get?]⟩
      (.cons ⟨M1, y1, by rw [z1]; exact r3, rfl, by rw [r4]; exact p9, by simp [Dict.get?]⟩
      (.cons ⟨M2, y2, by rw [z2]; exact s3, by rw [s4, r4], closed_mapVerts _ _ (by rw [r4]; exact p9), by simp [Dict.get?]⟩ .nil))
  refine ⟨st, st', M0, M1, M2, y0, y1, y2, a1, t1, hnamed, by rw [z0]; exact q3, by rw [z1]; exact r3, by rw [z2]; exact s3,
    by rw [q4]; exact p6, by rw [s4, r4], ?_, fun a st'' ha => ?_⟩
  · rintro rfl
    refine analyse_total st' _ depth (by rw [t2]) (by rw [hnamed]; simp) ?_ ?_
    · intro e he
      obtain ⟨b, -, M, c, k, -⟩ := exists_of_mem hsolid he
      exact ⟨M, c, k⟩
    · intro e he
      obtain ⟨b, -, M, c, -, -, -, k⟩ := exists_of_mem hsolid he
      exact ⟨_, k⟩
  · have hz : coord (firstMoment M1.tris) 2 = 2 := by
      have e := firstMoment_moved p5 2
      have e' : (firstMoment M.tris).z = 0 := firstMoment_mirror p6
      rw [← p8, p7, e'] at e
      rw [r4]
      show (firstMoment M'.tris).z = 2
      rw [e]
      norm_num
    obtain ⟨k1, q, k2, k3, -⟩ := C129_reflected_violated lib hl depth st' st'' _ a (by rw [t2]) ha _ _ ρ₀ ρ 2 hsolid (by rw [q4]; exact p6)
      (by rw [q4, p7]; norm_num) (by rw [r4, p10]; norm_num) h0.ne' h1.ne' (by rw [hz]; norm_num)
    rw [q4, p7, mul_one] at k1
    refine ⟨k1, q, k2, ?_⟩
    rw [hz, q4, p7, mul_one] at k3
    show coord q 2 = _
    rw [k3]
    ring

end HV
