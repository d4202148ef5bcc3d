import Verif.Props.D21Size
import Verif.Props.VehicleFiles
import Verif.Props.HangarDetails
import Verif.Props.Settings
import Verif.Model.Scripts

/-!
# C142, C143: the ReFEX as assembled has the dimensions given; the frame in which its script writes it
-/

namespace HV
open Spec Veh

/-- Like `generate_moved`, also telling that the meshes have not been computed. -/
theorem generate_moved_unmeshed (lib : Lib) (depth : ℕ) (st : VState) (hang : st.veh.angleOffset = 0) (hr : RigidList st.veh.transformations)
    (han : st.veh.analyseOn = none) (hu : Unshared st.heap st.veh.components) (res : ℕ → ℕ) (Q : ℕ → TriMesh ℝ → Prop)
    (hg : ∀ k ∈ st.veh.components, 1 ≤ res k ∧ Unmeshed (res k) (st.heap k) ∧ ∃ g c, generatePatches st.heap k = (.ok (), g) ∧
      pipeline 0 (g k) = (.ok (), c) ∧ ∃ M c', c.mesh = (.ok M, c') ∧ Q k M.tris) :
    ∃ A, InTurn st.veh.transformations A ∧ IsMotion A ∧ ∃ st', generate lib depth st = (.ok (), st') ∧ st'.veh = { st.veh with generated := true } ∧
      ∀ k ∈ st.veh.components, Unmeshed (res k) (st'.heap k) ∧ ∃ m, Q k m ∧ MeshIs (st'.heap k) (mapVerts A m) := by
  obtain ⟨st0, e0, -, h0⟩ := generate_parts lib depth ⟨st.heap, { st.veh with transformations := [] }⟩ hang rfl han hu
    (fun k c => Unmeshed (res k) c ∧ ∃ M c', c.mesh = (.ok M, c') ∧ Q k M.tris) (by
      intro k hk
      obtain ⟨-, g1, g, c, g2, g3, g4⟩ := hg k hk
      exact ⟨g, c, g2, g3, generated_unmeshed g1 (hu.notChild k hk k hk) g2 g3, g4⟩)
  obtain ⟨A, hI, hA, st', e1, e2, h1⟩ := C117_generate_partial lib depth st st0 hr han hu.nodup e0
  refine ⟨A, hI, hA, st', e1, e2, fun k hk => ?_⟩
  obtain ⟨u1, M, c', u2, u3⟩ := h0 k hk
  obtain ⟨w, v⟩ := h1 k hk (res k) (hg k hk).1 u1
  exact ⟨w, _, u3, v _ ⟨M, c', u2, rfl⟩⟩

theorem cart3d_rigid : RigidList CART3D := by
  intro t ht
  refine ⟨cart3d_plain t ht, ?_⟩
  simp only [CART3D, List.mem_cons, List.not_mem_nil, or_false] at ht
  rcases ht with rfl | rfl <;> exact trivial

open ReFEX Classical in
/-- The parts of the generated ReFEX, one after the other, in the frame of Cart3D. -/
theorem refex_assembled (ptan : ℝ → ℝ) (h : Heap) (ids : ℕ → ℕ) (hi : Function.Injective ids) (shift : V) (kwargs : Dict String ℝ) (p : ReFEX.Params)
    (ha : ReFEXArgs kwargs p) (hp : ReFEXOk p shift) (P0 P1 : PathObj) (a : Wing.Args) (w : Wing.State)
    (e0 : Ogive.comp p.h p.r_n p.r_o p.L_o 50 = .ok (RevolvedComponent P0 50)) (e1 : bodyLine p = .ok P1) (ea : wingArgs p = .ok a)
    (ew : Wing.init (rounded bisect01) a = .ok w) (Q : ℕ → TriMesh ℝ → Prop)
    (hQ : ∀ i < 7, ∀ (H : Heap) (k : ℕ), H k = partAt ptan p shift P0 P1 w i (res0 i) → ∃ g c M c', generatePatches H k = (.ok (), g) ∧
      pipeline 0 (g k) = (.ok (), c) ∧ c.mesh = (.ok M, c') ∧ Q i M.tris) (lib : Lib) (depth : ℕ) :
    ∃ st st', ReFEX.instanceOf bisect01 ptan h ids shift kwargs = .ok st ∧ generate lib depth st = (.ok (), st') ∧
      st'.veh.components = ((List.range 7).filter (refexOn p)).map ids ∧ st'.veh.generated = true ∧
      st'.veh.named = ((List.range 7).filter (refexOn p)).map (fun i => (refexName p i, ids i)) ∧
      ∀ i < 7, refexOn p i = true → (st'.heap (ids i)).ghost = false ∧ Unmeshed (res0 i) (st'.heap (ids i)) ∧ ∃ m, Q i m ∧ MeshIs (st'.heap (ids i)) (mapVerts cart3d m) := by
  obtain ⟨st, b1, b2, b3, v1, v2, v3, f⟩ := refex_instance ptan h ids hi shift kwargs p ha P0 P1 a w e0 e1 ea ew
    (transition_mesh hp _ 20 (by norm_num) none).1
  have hmem : ∀ k ∈ st.veh.components, ∃ i < 7, refexOn p i = true ∧ k = ids i := by
    intro k hk
    rw [b2, List.mem_map] at hk
    obtain ⟨i, hi', rfl⟩ := hk
    rw [List.mem_filter, List.mem_range] at hi'
    exact ⟨i, hi'.1, hi'.2, rfl⟩
  have ch : ∀ k ∈ st.veh.components, (st.heap k).children = [] := by
    intro k hk
    obtain ⟨i, h7, hon, rfl⟩ := hmem k hk
    rw [f i h7 hon]
    interval_cases i <;> rfl
  have hres : ∀ i < 7, 1 ≤ res0 i := by intro i h7; interval_cases i <;> simp [res0]
  have hch : ∀ i, (if hk : ∃ j, ids i = ids j then res0 hk.choose else 0) = res0 i := by
    intro i
    have he : ∃ j, ids i = ids j := ⟨i, rfl⟩
    rw [dif_pos he, ← hi he.choose_spec]
  obtain ⟨A, hI, hA, st', s1, sv, s2⟩ := generate_moved_unmeshed lib depth st v1 (by rw [v2]; exact cart3d_rigid) v3
    (unshared_leaves _ _ (by rw [b2]; exact (List.nodup_range.filter _).map hi) ch)
    (fun k => if hk : ∃ i, k = ids i then res0 hk.choose else 0)
    (fun k m => ∀ i, k = ids i → Q i m)
    (by
      intro k hk
      obtain ⟨i, h7, hon, rfl⟩ := hmem k hk
      simp only [hch]
      have hc := f i h7 hon
      refine ⟨hres i h7, ⟨?_, ?_, ?_, ?_, ?_⟩, ?_⟩
      · rw [hc]; interval_cases i <;> rfl
      · rw [hc]; interval_cases i <;> rfl
      · rw [hc]; interval_cases i <;> rfl
      · rw [hc]; interval_cases i <;> simp [partAt, RevolvedComponent, Fin.comp, wingOf, Wing.comp, Swept.comp]
      · rw [hc]; interval_cases i <;> rfl
      · obtain ⟨g, c, M, c', g1, g2, g3, g4⟩ := hQ i h7 st.heap (ids i) hc
        refine ⟨g, c, g1, g2, M, c', g3, fun j hj => ?_⟩
        rw [← hi hj]; exact g4)
  rw [v2] at hI
  have hA' : A = cart3d := funext fun q => moved_cart3d _ _ (Waverider.inTurn_moved hI q)
  subst hA'
  refine ⟨st, st', b1, s1, by rw [sv]; exact b2, by rw [sv], by rw [sv]; exact b3, fun i h7 hon => ?_⟩
  obtain ⟨u, m, q1, q2⟩ := s2 (ids i) (by
    rw [b2]
    exact List.mem_map.2 ⟨i, List.mem_filter.2 ⟨List.mem_range.2 h7, hon⟩, rfl⟩)
  rw [hch] at u
  refine ⟨?_, u, m, q1 i rfl, q2⟩
  have := (C134_call lib depth st .generate (ids i) (by simp [SetsOn])).trans (congrArg settings (f i h7 hon))
  have e : (exec lib depth st .generate).2 = st' := by simp [exec, s1]
  rw [e] at this
  have := congrArg Comp.ghost this
  simp only [settings] at this
  rw [this]
  interval_cases i <;> rfl

namespace Spec

/-- The sizes of part number `i` of a ReFEX with the mesh `m`, in the frame of the design: `x` forward from the front of the body, `y` to the side
and `z` down. -/
def ReFEXPart (p : ReFEX.Params) (shift : V) (m : TriMesh ℝ) : ℕ → Prop
  /- The nose: an ogive of the radii given, its tip rounded off, with the fairing `L_o` behind. -/
  | 0 => Spans (·.x) (-p.L_o) (Real.sqrt ((p.r_o - p.r_n) ^ 2 - (p.r_o - p.h) ^ 2) + p.r_n) m ∧ ∀ v, IsVertex v m → axisDist v ≤ p.h
  /- The body has the length and the radius given. -/
  | 1 => Spans (·.x) (-p.L_b) 0 m ∧ Spans (·.y) (-p.h) p.h m ∧ Spans (·.z) (-p.h) p.h m ∧ ∀ v, IsVertex v m → axisDist v ≤ p.h
  /- The wing is doubled by its mirror image, and reaches the span given beyond the body on either side. -/
  | 4 => (∀ v, IsVertex v m → -p.L_b - 0.03 ≤ v.x ∧ v.x ≤ -p.L_b + 1.1 * p.wing_length + 0.03 ∧ |v.y| ≤ p.wing_span + p.h + 0.03 ∧
        p.h - 3 * p.fin_thickness - 1e-12 ≤ v.z ∧ v.z ≤ p.h + 1e-12) ∧
      ∀ s, s = 1 ∨ s = -1 → IsVertex ⟨-p.L_b + 0.1 * p.wing_length, s * (p.wing_span + p.h), p.h⟩ m ∧
        IsVertex ⟨-p.L_b + 0.1 * p.wing_length, s * (p.wing_span + p.h), p.h - 3 * p.fin_thickness⟩ m ∧
        IsVertex ⟨-p.L_b + 0.1 * p.wing_length, s * (p.wing_span + p.h + 0.01), p.h - 1.5 * p.fin_thickness⟩ m ∧
        IsVertex ⟨-p.L_b, s * (p.wing_span + p.h), p.h - 1.5 * p.fin_thickness⟩ m
  /- The transition is closed. -/
  | 5 => Closed m
  /- The tail stands up from the body. -/
  | 6 => StandsOver m (upright 0) p.tail_thickness [(-p.L_b + 2 * p.tail_thickness, p.h - 0.02 * p.tail_height),
        (-p.L_b + 2 * p.tail_thickness, p.h + 0.96 * p.tail_height), (-p.L_b + 2 * p.tail_thickness + 0.48 * p.tail_height, p.h + 0.94 * p.tail_height),
        (-p.L_b + 2 * p.tail_thickness + 1.2 * p.tail_height, p.h - 0.04 * p.tail_height)] ∧
      BoxedBy m (upright 0) (-p.L_b + p.tail_thickness - 0.03) (-p.L_b + 2 * p.tail_thickness + 1.2 * p.tail_height + 0.03)
        (p.h - 0.04 * p.tail_height - 0.03) (p.h + 0.96 * p.tail_height + 0.03) (p.tail_thickness / 2 + 1e-12)
  /- The canards stand out to the sides, turned about their pivot by the angle given. -/
  | i => ∀ s : ℝ, i = 2 ∧ s = 1 ∨ i = 3 ∧ s = -1 →
      let f := fun u => sideways s (pitched (s * p.canard_angle) (shift.x - p.L_o - 0.845 * p.h) u)
      StandsOver m f p.fin_thickness [(shift.x - p.L_o - 1.69 * p.h, shift.y + 0.974 * p.h), (shift.x - p.L_o - 1.69 * p.h, shift.y + 2.248 * p.h),
        (shift.x - p.L_o - 1.183 * p.h, shift.y + 2.222 * p.h), (shift.x - p.L_o, shift.y + 0.974 * p.h)] ∧
      BoxedBy m f (shift.x - p.L_o - 1.69 * p.h - p.fin_thickness - 0.03) (shift.x - p.L_o + 0.03)
        (shift.y + 0.974 * p.h - 0.03) (shift.y + 2.248 * p.h + 0.03) (p.fin_thickness / 2 + 1e-12)

end Spec

set_option maxHeartbeats 800000 in
open ReFEX in
theorem refex_sized (ptan : ℝ → ℝ) (hT : FloatTan ptan) (h : Heap) (ids : ℕ → ℕ) (hi : Function.Injective ids) (shift : V) (kwargs : Dict String ℝ)
    (p : ReFEX.Params) (ha : ReFEXArgs kwargs p) (hp : ReFEXOk p shift) (lib : Lib) (depth : ℕ) :
    ∃ st st', ReFEX.instanceOf bisect01 ptan h ids shift kwargs = .ok st ∧ generate lib depth st = (.ok (), st') ∧
      st'.veh.components = ((List.range 7).filter (refexOn p)).map ids ∧ st'.veh.generated = true ∧
      st'.veh.named = ((List.range 7).filter (refexOn p)).map (fun i => (refexName p i, ids i)) ∧
      ∀ i < 7, refexOn p i = true → (st'.heap (ids i)).ghost = false ∧ Unmeshed (res0 i) (st'.heap (ids i)) ∧ ∃ m, ReFEXPart p shift m i ∧ MeshIs (st'.heap (ids i)) (mapVerts cart3d m) := by
  have h0 : 0 < p.h := by linarith [hp.tip, hp.blunt]
  obtain ⟨P0, e0, -⟩ := nose_mesh hp
  obtain ⟨P1, e1, -⟩ := body_mesh hp
  obtain ⟨a, w, ea, ew, hw⟩ := C140_refex_wing p shift hp hT
  obtain ⟨_, hog⟩ := C137_ogive_partial p.h p.r_n p.r_o p.L_o hp.tip hp.blunt hp.ogive hp.fairing
  refine refex_assembled ptan h ids hi shift kwargs p ha hp P0 P1 a w e0 e1 ea ew (fun i m => ReFEXPart p shift m i) ?_ lib depth
  intro i h7 H k hk
  have plain : ∀ {h'}, generatePatches H k = (.ok (), h') → k ∉ (H k).children → (H k).modifier = none → (H k).curvatures = none →
      (H k).reflection_axis = none → (H k).transformations = [] → pipeline 0 (h' k) = (.ok (), h' k) := fun g1 => ReFEX.plain_pipeline g1
  interval_cases i
  · obtain ⟨c, hc, hh⟩ := hog 50 (by norm_num) none
    have : c = RevolvedComponent P0 50 := by
      have := hc.symm.trans e0
      exact Except.ok.inj this
    subst this
    obtain ⟨h', M, c', g1, g2, g3, g4, -⟩ := hh H k hk
    exact ⟨h', h' k, M, c', g1, plain g1 (by rw [hk]; simp [partAt, RevolvedComponent, Comp.children]) (by rw [hk]; rfl) (by rw [hk]; rfl)
      (by rw [hk]; rfl) (by rw [hk]; rfl), g2, g3, g4⟩
  · rw [bodyLine_eq] at e1
    obtain ⟨q1, q2, q3, q4, q5⟩ := tube_profile p.L_b p.h hp.body h0 P1 e1
    obtain ⟨h', M, c', g1, g2, g3, g4, g5⟩ := revolved_extent P1 q1 (-p.L_b) 0 p.h q4 q2 q3 50 (by norm_num) none H k hk
    obtain ⟨a1, a2⟩ := g5 25 (by norm_num) (by rw [← q5]; norm_num)
    exact ⟨h', h' k, M, c', g1, plain g1 (by rw [hk]; simp [partAt, RevolvedComponent, Comp.children]) (by rw [hk]; rfl) (by rw [hk]; rfl)
      (by rw [hk]; rfl) (by rw [hk]; rfl), g2, g3, a1, a2, g4⟩
  · obtain ⟨h', M, c', g1, g2, g3, g4, -⟩ := C139_refex_canard p shift hp hT 0 1 (.inl ⟨rfl, rfl⟩) 3 (by norm_num) none H k hk
    refine ⟨h', h' k, M, c', g1, plain g1 (by rw [hk]; simp [partAt, Fin.comp, Comp.children]) (by rw [hk]; rfl) (by rw [hk]; rfl)
      (by rw [hk]; rfl) (by rw [hk]; rfl), g2, ?_⟩
    rintro s (⟨-, rfl⟩ | ⟨h, -⟩)
    · exact ⟨g3, g4⟩
    · omega
  · obtain ⟨h', M, c', g1, g2, g3, g4, -⟩ := C139_refex_canard p shift hp hT 1 (-1) (.inr ⟨rfl, rfl⟩) 3 (by norm_num) none H k hk
    refine ⟨h', h' k, M, c', g1, plain g1 (by rw [hk]; simp [partAt, Fin.comp, Comp.children]) (by rw [hk]; rfl) (by rw [hk]; rfl)
      (by rw [hk]; rfl) (by rw [hk]; rfl), g2, ?_⟩
    rintro s (⟨h, -⟩ | ⟨-, rfl⟩)
    · omega
    · exact ⟨g3, g4⟩
  · obtain ⟨h', M, c', g1, g2, g3, -, g5, g6, g7, g8, -⟩ := hw 3 (by norm_num) none (fun _ => Wing.comp ptan w 3 none) 0 rfl
    obtain ⟨g, c, M', c'', r1, r2, r3, r4⟩ := reflected_wing ptan w 3 (by norm_num) h' M c' g1 g2 H k none hk
    refine ⟨g, c, M', c'', r1, r2, r3, ?_⟩
    show ReFEXPart p shift M'.tris 4
    rw [r4]
    have hs := hp.span
    refine ⟨?_, ?_⟩
    · intro v hv
      rcases isVertex_mirrored.1 hv with hv | hv
      · obtain ⟨a1, a2, a3, a4, a5, a6⟩ := g3 _ hv
        exact ⟨a1, a2, abs_le.2 ⟨by linarith, a4⟩, a5, a6⟩
      · obtain ⟨a1, a2, a3, a4, a5, a6⟩ := g3 _ hv
        simp only at a1 a2 a3 a4 a5 a6
        exact ⟨a1, a2, abs_le.2 ⟨by linarith, by linarith⟩, a5, a6⟩
    · have t1 := g5 p.h (by simp) (-p.L_b + 0.1 * p.wing_length, p.wing_span + p.h) (by simp)
      have t2 := g5 (p.h - 3 * p.fin_thickness) (by simp) (-p.L_b + 0.1 * p.wing_length, p.wing_span + p.h) (by simp)
      rintro s (rfl | rfl)
      · simp only [one_mul]
        exact ⟨isVertex_mirrored.2 (.inl t1), isVertex_mirrored.2 (.inl t2), isVertex_mirrored.2 (.inl g8), isVertex_mirrored.2 (.inl g7)⟩
      · simp only [neg_one_mul]
        refine ⟨isVertex_mirrored.2 (.inr ?_), isVertex_mirrored.2 (.inr ?_), isVertex_mirrored.2 (.inr ?_), isVertex_mirrored.2 (.inr ?_)⟩ <;>
          simp only [neg_neg] <;> assumption
  · obtain ⟨g, c, g1, g2, M, c', g3, g4⟩ := (transition_mesh hp _ 20 (by norm_num) none).2 H k hk
    exact ⟨g, c, M, c', g1, g2, g3, g4⟩
  · obtain ⟨h', M, c', g1, g2, g3, g4, -⟩ := C139_refex_tail p shift hp hT 3 (by norm_num) none H k hk
    exact ⟨h', h' k, M, c', g1, plain g1 (by rw [hk]; simp [partAt, Fin.comp, Comp.children]) (by rw [hk]; rfl) (by rw [hk]; rfl)
      (by rw [hk]; rfl) (by rw [hk]; rfl), g2, g3, g4⟩

/-- C142 for the ReFEX: for all sensible dimensions, every canard angle and every combination of the toggles, the parts asked for have, in the frame of
Cart3D, the dimensions given: the body is `L_b` long and `2 h` wide and high, the nose is the ogive of the radii given, the wing reaches `wing_span` beyond
the body, and the fins stand over the quadrilaterals of the generator. -/
theorem C142_refex (ptan : ℝ → ℝ) (hT : FloatTan ptan) (h : Heap) (ids : ℕ → ℕ) (hi : Function.Injective ids) (shift : V) (kwargs : Dict String ℝ)
    (p : ReFEX.Params) (ha : ReFEXArgs kwargs p) (hp : ReFEXOk p shift) (lib : Lib) (depth : ℕ) :
    ∃ st st', ReFEX.instanceOf bisect01 ptan h ids shift kwargs = .ok st ∧ generate lib depth st = (.ok (), st') ∧
      st'.veh.named = ((List.range 7).filter (refexOn p)).map (fun i => (refexName p i, ids i)) ∧
      ∀ i < 7, refexOn p i = true → ∃ M c' m, (st'.heap (ids i)).mesh = (.ok M, c') ∧ M.tris = mapVerts cart3d m ∧ ReFEXPart p shift m i := by
  obtain ⟨st, st', s1, s2, -, -, s3, s4⟩ := refex_sized ptan hT h ids hi shift kwargs p ha hp lib depth
  refine ⟨st, st', s1, s2, s3, fun i h7 hon => ?_⟩
  obtain ⟨-, -, m, q, M, c', k1, k2⟩ := s4 i h7 hon
  exact ⟨M, c', m, k1, k2, q⟩

theorem numbered_fst (ty : ℕ → String) (ks : List ℕ) : ∀ seen, (numbered ty seen ks).map Prod.fst = ks := by
  induction ks with
  | nil => intro seen; rfl
  | cons k ks ih => intro seen; simp [numbered, ih]

/-- The files written hold the meshes of the components in order. -/
theorem files_of (st : VState) (pre : Option String) (merge : MergeArg) (ev : List FsEv) (st' : VState) (h : toStl st pre merge = (.ok (), ev, st'))
    (hg : ∀ k ∈ st.veh.components, (st.heap k).ghost = false) :
    List.Forall₂ (fun k e => MeshIs (st.heap k) e.2.tris) st.veh.components (stlFiles ev) := by
  have := (C69_files st pre merge ev st' h).1
  rw [List.filter_eq_self.2] at this
  · have e := numbered_fst (fun k => (st.heap k).componenttype) st.veh.components []
    rw [← e, List.forall₂_map_left_iff]
    exact this.imp fun a b hab => by obtain ⟨-, c, hc⟩ := hab; exact ⟨_, c, hc, rfl⟩
  · intro a ha'
    have : a.1 ∈ st.veh.components := by
      rw [← numbered_fst (fun k => (st.heap k).componenttype) st.veh.components []]
      exact List.mem_map_of_mem ha'
    simp [hg _ this]

theorem forall₂_both {α β : Type} {R S : α → β → Prop} {l : List α} {m : List β} (h : List.Forall₂ R l m) (g : List.Forall₂ S l m) :
    List.Forall₂ (fun a b => R a b ∧ S a b) l m := by
  induction h with
  | nil => exact .nil
  | cons h1 _ ih => cases g with | cons g1 g2 => exact .cons ⟨h1, g1⟩ (ih g2)

theorem mapVerts_cart3d_twice (m : TriMesh ℝ) : mapVerts cart3d (mapVerts cart3d m) = m := by
  have : ∀ v, cart3d (cart3d v) = v := by intro v; ext <;> simp [cart3d]
  unfold mapVerts
  rw [List.map_map]
  conv_rhs => rw [← List.map_id m]
  exact List.map_congr_left fun t _ => by simp [this]

open ReFEX in
/-- C143: a ReFEX that is generated and written, as the other vehicles of the hangar are by their scripts, is written in the frame of Cart3D: one file for
each part asked for, with the part turned into that frame. -/
theorem C143_partial (ptan : ℝ → ℝ) (hT : FloatTan ptan) (h : Heap) (ids : ℕ → ℕ) (hi : Function.Injective ids) (shift : V) (kwargs : Dict String ℝ)
    (p : ReFEX.Params) (ha : ReFEXArgs kwargs p) (hp : ReFEXOk p shift) (lib : Lib) (depth : ℕ) (pre : Option String) :
    ∃ st ev st', ReFEX.instanceOf bisect01 ptan h ids shift kwargs = .ok st ∧ Veh.save lib depth pre (.bool false) st = (.ok (), ev, st') ∧
      List.Forall₂ (fun i (e : String × StlMesh) => ∃ m, ReFEXPart p shift m i ∧ e.2.tris = mapVerts cart3d m)
        ((List.range 7).filter (refexOn p)) (stlFiles ev) := by
  obtain ⟨st, st1, s1, s2, s3, s4, -, s5⟩ := refex_sized ptan hT h ids hi shift kwargs p ha hp lib depth
  have hmem : ∀ k ∈ st1.veh.components, ∃ i < 7, refexOn p i = true ∧ k = ids i := by
    intro k hk
    rw [s3, List.mem_map] at hk
    obtain ⟨i, hi', rfl⟩ := hk
    rw [List.mem_filter, List.mem_range] at hi'
    exact ⟨i, hi'.1, hi'.2, rfl⟩
  obtain ⟨ev, st', w⟩ := toStl_total st1 pre false (by
    intro k hk _
    obtain ⟨i, h7, hon, rfl⟩ := hmem k hk
    obtain ⟨-, -, m, -, M, c, q, -⟩ := s5 i h7 hon
    exact ⟨M, c, q⟩)
  refine ⟨st, ev, st', s1, by unfold Veh.save; rw [s2]; exact w, ?_⟩
  have := files_of st1 _ _ ev st' w (by
    intro k hk
    obtain ⟨i, h7, hon, rfl⟩ := hmem k hk
    exact (s5 i h7 hon).1)
  rw [s3, List.forall₂_map_left_iff] at this
  refine ((List.forall₂_and_left (p := fun i => i < 7 ∧ refexOn p i = true) _ _).2 ⟨fun i hi' => by
    rw [List.mem_filter, List.mem_range] at hi'; exact hi', this⟩).imp ?_
  rintro i e ⟨⟨h7, hon⟩, hm⟩
  obtain ⟨-, -, m, q, hm'⟩ := s5 i h7 hon
  exact ⟨m, q, meshIs_unique hm hm'⟩

open ReFEX in
/-- C143 is violated by the script of the ReFEX: it turns the vehicle into the frame of Cart3D once more after the vehicle has been turned by `generate`, and
so writes every part in the frame of the design, the body reaching from `-L_b` to `0` and not from `0` to `L_b`. -/
theorem C143_violated (ptan : ℝ → ℝ) (hT : FloatTan ptan) (h : Heap) (ids : ℕ → ℕ) (hi : Function.Injective ids) (shift : V) (kwargs : Dict String ℝ)
    (p : ReFEX.Params) (ha : ReFEXArgs kwargs p) (hp : ReFEXOk p shift) (lib : Lib) (depth : ℕ) :
    ∃ st ev st', ReFEX.instanceOf bisect01 ptan h ids shift kwargs = .ok st ∧ ReFEX.main lib depth st = (.ok (), ev, st') ∧
      List.Forall₂ (fun i (e : String × StlMesh) => ReFEXPart p shift e.2.tris i) ((List.range 7).filter (refexOn p)) (stlFiles ev) ∧
      (p.generate_fuselage ≠ 0 → ∃ e ∈ stlFiles ev, Spans (·.x) (-p.L_b) 0 e.2.tris) ∧
      (p.generate_fuselage ≠ 0 → ¬ List.Forall₂ (fun i (e : String × StlMesh) => ∃ m, ReFEXPart p shift m i ∧ e.2.tris = mapVerts cart3d m)
        ((List.range 7).filter (refexOn p)) (stlFiles ev)) := by
  obtain ⟨st, st1, s1, s2, s3, s4, -, s5⟩ := refex_sized ptan hT h ids hi shift kwargs p ha hp lib depth
  have hmem : ∀ k ∈ st1.veh.components, ∃ i < 7, refexOn p i = true ∧ k = ids i := by
    intro k hk
    rw [s3, List.mem_map] at hk
    obtain ⟨i, hi', rfl⟩ := hk
    rw [List.mem_filter, List.mem_range] at hi'
    exact ⟨i, hi'.1, hi'.2, rfl⟩
  obtain ⟨A, hI, -, st2, t1, t2, t3⟩ := C117_transform_partial st1 (.many CART3D) cart3d_rigid s4
    (by rw [s3]; exact (List.nodup_range.filter _).map hi)
  have hA : A = cart3d := funext fun q => moved_cart3d _ _ (Waverider.inTurn_moved hI q)
  subst hA
  have hM : ∀ i < 7, refexOn p i = true → (st2.heap (ids i)).ghost = false ∧ ∃ m, ReFEXPart p shift m i ∧ MeshIs (st2.heap (ids i)) m := by
    intro i h7 hon
    obtain ⟨u1, u2, m, q, hm⟩ := s5 i h7 hon
    have hr : 1 ≤ res0 i := by interval_cases i <;> simp [res0]
    have hk := (t3 (ids i) (by rw [s3]; exact List.mem_map.2 ⟨i, List.mem_filter.2 ⟨List.mem_range.2 h7, hon⟩, rfl⟩) _ hr u2).2 _ hm
    rw [mapVerts_cart3d_twice] at hk
    refine ⟨?_, m, q, hk⟩
    have := transform_keeps st1 (.many CART3D) (ids i)
    rw [t1] at this
    have := congrArg Comp.ghost this
    simp only [settings] at this
    rw [this, u1]
  obtain ⟨ev, st', w⟩ := toStl_total st2 (some "refex") false (by
    intro k hk _
    rw [t2] at hk
    obtain ⟨i, h7, hon, rfl⟩ := hmem k hk
    obtain ⟨-, m, -, M, c, q, -⟩ := hM i h7 hon
    exact ⟨M, c, q⟩)
  have hF := files_of st2 _ _ ev st' w (by
    intro k hk
    rw [t2] at hk
    obtain ⟨i, h7, hon, rfl⟩ := hmem k hk
    exact (hM i h7 hon).1)
  rw [t2, s3, List.forall₂_map_left_iff] at hF
  have hF : List.Forall₂ (fun i (e : String × StlMesh) => ReFEXPart p shift e.2.tris i) ((List.range 7).filter (refexOn p)) (stlFiles ev) := by
    refine ((List.forall₂_and_left (p := fun i => i < 7 ∧ refexOn p i = true) _ _).2 ⟨fun i hi' => by
      rw [List.mem_filter, List.mem_range] at hi'; exact hi', hF⟩).imp ?_
    rintro i e ⟨⟨h7, hon⟩, hm⟩
    obtain ⟨-, m, q, hm'⟩ := hM i h7 hon
    rw [meshIs_unique hm hm']
    exact q
  have h1 : p.generate_fuselage ≠ 0 → 1 ∈ (List.range 7).filter (refexOn p) := by
    intro hon
    exact List.mem_filter.2 ⟨by simp, by simp [refexOn, hon]⟩
  refine ⟨st, ev, st', s1, ?_, hF, fun hon => ?_, fun hon hc => ?_⟩
  · unfold ReFEX.main
    rw [s2]
    simp only [t1]
    exact w
  · obtain ⟨e, he, hq⟩ := forall₂_right hF (h1 hon)
    exact ⟨e, he, hq.1⟩
  · obtain ⟨e, he, hq, m, hm, e'⟩ := forall₂_right (forall₂_both hF hc) (h1 hon)
    have hx := hq.1
    have hy := hm.1
    rw [e'] at hx
    have : Spans (·.x) 0 p.L_b (mapVerts cart3d m) := by
      obtain ⟨a1, ⟨v, a2, a3⟩, ⟨v', a4, a5⟩⟩ := hy
      refine ⟨?_, ⟨_, isVertex_mapVerts.2 ⟨v', a4, rfl⟩, ?_⟩, ⟨_, isVertex_mapVerts.2 ⟨v, a2, rfl⟩, ?_⟩⟩
      · intro u hu
        obtain ⟨u, hu', rfl⟩ := isVertex_mapVerts.1 hu
        have := a1 u hu'
        simp only [cart3d] at this ⊢
        constructor <;> linarith [this.1, this.2]
      · simp only [cart3d] at a5 ⊢; linarith
      · simp only [cart3d] at a3 ⊢; linarith
    have := (spans_unique hx this).1
    linarith [hp.body]

/-- The ReFEX without arguments: the vehicle, in the frame of Cart3D, has the body of 2.5 m behind the origin, and the script writes it ahead of it. -/
example (h : Heap) (lib : Lib) (depth : ℕ) : (∃ st st', ReFEX.instanceOf bisect01 ieeeTan h id ReFEX.defaultShift [] = .ok st ∧
      generate lib depth st = (.ok (), st') ∧ ∃ M c' m, (st'.heap 1).mesh = (.ok M, c') ∧ M.tris = mapVerts cart3d m ∧ Spans (·.x) (-2.5) 0 m) ∧
    ∃ st ev st', ReFEX.instanceOf bisect01 ieeeTan h id ReFEX.defaultShift [] = .ok st ∧ ReFEX.main lib depth st = (.ok (), ev, st') ∧
      (stlFiles ev).length = 7 ∧ ∃ e ∈ stlFiles ev, Spans (·.x) (-2.5) 0 e.2.tris := by
  obtain ⟨ha, hp⟩ := refexDefault_ok
  have on : ∀ i < 7, refexOn refexDefault i = true := by
    intro i h7
    interval_cases i <;> simp [refexOn, refexDefault]
  constructor
  · obtain ⟨st, st', s1, s2, -, s4⟩ := C142_refex ieeeTan ieeeTan_float h id Function.injective_id _ [] _ ha hp lib depth
    obtain ⟨M, c', m, k1, k2, k3⟩ := s4 1 (by norm_num) (on 1 (by norm_num))
    exact ⟨st, st', s1, s2, M, c', m, k1, k2, k3.1⟩
  · obtain ⟨st, ev, st', s1, s2, s3, s4, -⟩ := C143_violated ieeeTan ieeeTan_float h id Function.injective_id _ [] _ ha hp lib depth
    refine ⟨st, ev, st', s1, s2, ?_, s4 (by simp [refexDefault])⟩
    rw [← s3.length_eq, List.filter_eq_self.2 fun i hi => on i (List.mem_range.1 hi)]
    rfl

end HV
