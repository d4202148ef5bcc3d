import Verif.Props.Hifire8Size
import Verif.Props.Hifire4Fins

/-!
# C156: fins on round bodies
-/

namespace HV
open Spec Veh

namespace Spec

/-- The point lies in every half-space in which the mesh lies.  For a mesh that bounds a convex body these are the points of the body. -/
def InHull (m : TriMesh ℝ) (q : V) : Prop :=
  ∀ a b c d : ℝ, (∀ v, IsVertex v m → 0 ≤ a * v.x + b * v.y + c * v.z + d) → 0 ≤ a * q.x + b * q.y + c * q.z + d

/-- What it takes to glue a fin to a body: all corners of its foot lie in the body. -/
def Rooted (body : TriMesh ℝ) (foot : List V) : Prop := ∀ q ∈ foot, InHull body q

/-- The corners of the foot of fin number `i` of a Finner. -/
noncomputable def finnerFoot (p : Finner.Params) (i : ℕ) : List V :=
  [quarterTurn^[i] ⟨p.total_length - p.fin_length, 0, p.diameter / 2⟩, quarterTurn^[i] ⟨p.total_length, -(p.max_fin_thickness / 2), p.diameter / 2⟩,
   quarterTurn^[i] ⟨p.total_length, p.max_fin_thickness / 2, p.diameter / 2⟩]

/-- The corners of the foot of a fin of a HIFiRE 8 in the direction `φ`. -/
noncomputable def hifire8Foot (p : HIFiRE8.Params) (φ : ℝ) : List V :=
  [radially φ ⟨0, bodyRadius p 0, 0.004⟩, radially φ ⟨0, bodyRadius p 0, -0.004⟩, radially φ ⟨0.4, bodyRadius p 0.4, 0.004⟩,
   radially φ ⟨0.4, bodyRadius p 0.4, -0.004⟩]

end Spec

theorem OnMesh.inHull {m : TriMesh ℝ} {q : V} (h : OnMesh m q) : InHull m q := fun _ _ _ _ hv => onMesh_aff hv h

theorem IsVertex.onMesh {m : TriMesh ℝ} {q : V} (h : IsVertex q m) : OnMesh m q := by
  obtain ⟨t, ht, rfl | rfl | rfl⟩ := h
  · exact ⟨t, ht, 1, 0, 0, by norm_num, by norm_num, by norm_num, by norm_num, by ext <;> simp⟩
  · exact ⟨t, ht, 0, 1, 0, by norm_num, by norm_num, by norm_num, by norm_num, by ext <;> simp⟩
  · exact ⟨t, ht, 0, 0, 1, by norm_num, by norm_num, by norm_num, by norm_num, by ext <;> simp⟩

/-- The hull of what lies inside of a cone about the axis lies inside of the cone. -/
theorem InHull.cone {m : TriMesh ℝ} {k R : ℝ} (hm : ∀ v, IsVertex v m → axisDist v ≤ R - v.x * k) {q : V} (hq : InHull m q) :
    axisDist q ≤ R - q.x * k := by
  rw [axisDist_le_iff]
  intro a b hab
  have := hq (-k) (-a) (-b) R (fun v hv => by
    have := axisDist_le_iff.1 (hm v hv) a b hab
    linarith)
  linarith

theorem InHull.cylinder {m : TriMesh ℝ} {R : ℝ} (hm : ∀ v, IsVertex v m → axisDist v ≤ R) {q : V} (hq : InHull m q) : axisDist q ≤ R := by
  have := InHull.cone (k := 0) (R := R) (fun v hv => by have := hm v hv; linarith) hq
  linarith

/-- The first edges of the cells of a grid lie on its mesh. -/
theorem grid_edge_onMesh (n m : ℕ) (P : ℕ → ℕ → V) (i : ℕ) (hi : i < n) (hm : 1 ≤ m) (s : ℝ) (h0 : 0 ≤ s) (h1 : s ≤ 1) :
    OnMesh (gridMesh MeshArith.real false n m P) ((P i 0) * (1 - s) + (P (i + 1) 0) * s) := by
  refine ⟨_, (mem_gridMesh _ _ _ _ _ _).2 ⟨i, hi, 0, hm, List.mem_cons_self⟩, 1 - s, s, 0, by linarith, h0, le_rfl, by ring, ?_⟩
  ext <;> simp [meshVertex_real] <;> ring

/-- A straight profile itself, turned by a quarter turn, lies on the mesh of the grid of that quarter. -/
theorem profile_onMesh (n : ℕ) (hn : 1 ≤ n) (p q : V) (k : ℕ) (t : ℝ) (h0 : 0 ≤ t) (h1 : t ≤ 1) :
    OnMesh (gridMesh MeshArith.real false n n (revolveGrid (lineAt p q) n k)) (revolveRot ((k : ℝ) * Real.pi / 2) (lineAt p q t)) := by
  have hn' : (0 : ℝ) < n := by exact_mod_cast hn
  obtain ⟨i, hi, s, s0, s1, e⟩ : ∃ i < n, ∃ s : ℝ, 0 ≤ s ∧ s ≤ 1 ∧ t = ((i : ℝ) + s) / n := by
    rcases eq_or_lt_of_le h1 with rfl | h1
    · refine ⟨n - 1, by omega, 1, by norm_num, le_rfl, ?_⟩
      rw [Nat.cast_sub hn]
      field_simp
      push_cast
      ring
    · have hf : (⌊t * n⌋₊ : ℝ) ≤ t * n := Nat.floor_le (by positivity)
      have hc := Nat.lt_floor_add_one (t * n)
      refine ⟨⌊t * n⌋₊, ?_, t * n - ⌊t * n⌋₊, by linarith, by linarith, ?_⟩
      · rw [Nat.floor_lt (by positivity)]
        nlinarith
      · field_simp
        ring
  have := grid_edge_onMesh n n (revolveGrid (lineAt p q) n k) i hi hn s s0 s1
  convert this using 1
  have e1 : revolveRot ((k : ℝ) * Real.pi / 2 * (1 - ((0 : ℕ) : ℝ) / n) + (((k : ℝ) + 1) * Real.pi / 2) * (((0 : ℕ) : ℝ) / n)) =
      revolveRot ((k : ℝ) * Real.pi / 2) := by simp
  unfold revolveGrid
  rw [e1, e]
  push_cast
  ext <;> simp only [revolveRot, lineAt, Vec.add_x, Vec.add_y, Vec.add_z, Vec.mul_x, Vec.mul_y, Vec.mul_z] <;> field_simp <;> ring

/-- The lines along the body on which the fins stand. -/
theorem revolveRot_turn (i : ℕ) (hi : i < 4) (x r : ℝ) : revolveRot (((3 - i : ℕ) : ℝ) * Real.pi / 2) ⟨x, r, 0⟩ = quarterTurn^[i] ⟨x, 0, r⟩ := by
  have e2 : ((2 : ℕ) : ℝ) * Real.pi / 2 = Real.pi := by push_cast; ring
  have e3 : ((3 : ℕ) : ℝ) * Real.pi / 2 = Real.pi + Real.pi / 2 := by push_cast; ring
  interval_cases i
  · simp only [Nat.sub_zero, e3]; simp [revolveRot, Real.sin_add, Real.cos_add]
  · simp only [show (3 - 1 : ℕ) = 2 from rfl, e2]; simp [revolveRot, quarterTurn]
  · simp only [show (3 - 2 : ℕ) = 1 from rfl]; simp [revolveRot, quarterTurn]
  · simp [revolveRot, quarterTurn]

theorem axisDist_turn (i : ℕ) (v : V) : axisDist (quarterTurn^[i] v) = axisDist v := by
  induction i with
  | zero => rfl
  | succ i ih =>
    rw [Function.iterate_succ_apply', ← ih]
    unfold axisDist quarterTurn
    congr 1
    ring

/-- What the parts of a generated Finner have to do with each other. -/
theorem finner_contact (h : Heap) (ids : ℕ → ℕ) (hi : Function.Injective ids) (kwargs : Dict String ℝ) (p : Finner.Params)
    (ha : FinnerArgs kwargs p) (hd : 0 ≤ p.diameter) (hn0 : 0 ≤ p.nose_length) (hn1 : p.nose_length < p.total_length)
    (hf : 0 ≤ p.fin_height ∧ 0 ≤ p.fin_length ∧ 0 ≤ p.max_fin_thickness) (lib : Lib) (depth : ℕ) :
    ∃ st, Finner.instanceOf h ids kwargs = .ok st ∧ ∀ n : ℕ, 1 ≤ n → ∃ st' B c, generate lib depth (withResolution st (ids 0) n) = (.ok (), st') ∧
      (st'.heap (ids 0)).mesh = (.ok B, c) ∧ (∀ v, IsVertex v B.tris → axisDist v ≤ p.diameter / 2) ∧
      ∀ i < 4, (∀ x, p.nose_length ≤ x → x ≤ p.total_length → OnMesh B.tris (quarterTurn^[i] ⟨x, 0, p.diameter / 2⟩)) ∧
      ∃ M c, (st'.heap (ids (4 + i))).mesh = (.ok M, c) ∧
        (∀ q ∈ quarterTurn^[i] ⟨p.total_length, 0, p.diameter / 2⟩ :: finnerFoot p i, IsVertex q M.tris) ∧
        (∃ v, IsVertex v M.tris ∧ along (quarterTurn^[i] ⟨0, 0, 1⟩) v = p.diameter / 2 + p.fin_height) ∧
        ∀ v, IsVertex v M.tris → p.diameter / 2 ≤ along (quarterTurn^[i] ⟨0, 0, 1⟩) v := by
  obtain ⟨st, s1, -, -, -, -, fin, h0, M0, c0, i1, i2, i3, r9⟩ := C103_finner h ids hi kwargs p ha
  obtain ⟨st₂, t1, t2⟩ := C136_finner h ids hi kwargs p ha hd hn0 hn1.le hf lib depth
  obtain rfl := Except.ok.inj (s1.symm.trans t1)
  refine ⟨st, s1, fun n hn => ?_⟩
  obtain ⟨st', g1, ⟨M, c, g2, -, -⟩, g5⟩ := r9 n hn lib depth
  obtain ⟨st'₂, u1, ⟨M₂, c₂, u2, -, -, -, u3, -⟩, u4⟩ := t2 n hn
  rw [g1] at u1
  obtain rfl := (Prod.mk.inj u1).2
  rw [g2] at u2
  obtain rfl := Except.ok.inj (Prod.mk.inj u2).1
  refine ⟨st', M, c, g1, g2, fun v hv => (u3 v hv).1, fun i h4 => ⟨fun x x0 x1 => ?_, ?_⟩⟩
  · have hM := finner_fuselage_grids h ids hi kwargs p ha st st' s1 n hn lib depth g1 M c g2
    have hlen : 0 < p.total_length - p.nose_length := by linarith
    obtain ⟨t, ht, a, b, d, a0, b0, d0, e, hq⟩ := profile_onMesh n hn ⟨p.nose_length, p.diameter / 2, 0⟩ ⟨p.total_length, p.diameter / 2, 0⟩ (3 - i)
      ((x - p.nose_length) / (p.total_length - p.nose_length)) (div_nonneg (by linarith) hlen.le) ((div_le_one hlen).2 (by linarith))
    refine ⟨t, ?_, a, b, d, a0, b0, d0, e, ?_⟩
    · rw [hM]
      refine List.mem_flatten.2 ⟨_, List.mem_map.2 ⟨_, ?_, rfl⟩, ht⟩
      exact List.mem_flatMap.2 ⟨lineAt ⟨p.nose_length, p.diameter / 2, 0⟩ ⟨p.total_length, p.diameter / 2, 0⟩, by simp [finnerLines],
        List.mem_map.2 ⟨3 - i, List.mem_range.2 (by omega), rfl⟩⟩
    · rw [← hq, ← revolveRot_turn i h4]
      congr 1
      ext <;> simp only [lineAt, Vec.add_x, Vec.add_y, Vec.add_z, Vec.mul_x, Vec.mul_y, Vec.mul_z]
      · field_simp
        ring
      · ring
      · ring
  · obtain ⟨M', c', m1, -, -, m4⟩ := g5 i h4
    obtain ⟨M₃, c₃, w1, -, w2, -⟩ := u4 i h4
    rw [m1] at w1
    obtain rfl := Except.ok.inj (Prod.mk.inj w1).1
    refine ⟨M', c', m1, ?_, ?_, fun v hv => (w2.1 v hv).1⟩
    · obtain ⟨c₁, j1, hh⟩ := C136_prism (finX p.max_fin_thickness) (finY p.fin_length) 0 p.fin_height 4 (by norm_num) none
      have hq : [0, p.fin_height].map (quadSection (finX p.max_fin_thickness) (finY p.fin_length)) =
          [0, p.fin_height].map fun z => [Line ⟨0, p.fin_length, z⟩ ⟨p.max_fin_thickness / 2, 0, z⟩,
          Line ⟨p.max_fin_thickness / 2, 0, z⟩ ⟨0, 0, z⟩, Line ⟨0, 0, z⟩ ⟨-(p.max_fin_thickness / 2), 0, z⟩,
          Line ⟨-(p.max_fin_thickness / 2), 0, z⟩ ⟨0, p.fin_length, z⟩] := by simp [quadSection, finX, finY]
      rw [hq] at j1
      obtain rfl := Except.ok.inj (i1.symm.trans j1)
      obtain ⟨h0', M0', c0', k1, k2, k3⟩ := hh (fun _ => fin) 0 rfl
      rw [i2] at k1
      obtain rfl := (Prod.mk.inj k1).2
      rw [i3] at k2
      obtain rfl := Except.ok.inj (Prod.mk.inj k2).1
      have hp : prism (finX p.max_fin_thickness) (finY p.fin_length) 0 p.fin_height = [⟨0, p.fin_length, 0⟩, ⟨p.max_fin_thickness / 2, 0, 0⟩, ⟨0, 0, 0⟩,
          ⟨-(p.max_fin_thickness / 2), 0, 0⟩, ⟨0, p.fin_length, p.fin_height⟩, ⟨p.max_fin_thickness / 2, 0, p.fin_height⟩, ⟨0, 0, p.fin_height⟩,
          ⟨-(p.max_fin_thickness / 2), 0, p.fin_height⟩] := by
        simp [prism, finX, finY, List.range_succ]
      rw [hp] at k3
      have key : ∀ u, IsVertex u M0.tris → IsVertex (quarterTurn^[i] (finPlace p.diameter p.total_length u)) M'.tris := fun u hu => by
        rw [m4]; exact isVertex_mapVerts.2 ⟨u, hu, rfl⟩
      intro q hq
      simp only [finnerFoot, List.mem_cons, List.not_mem_nil, or_false] at hq
      rcases hq with rfl | rfl | rfl | rfl
      · have := key _ (k3.1 ⟨0, 0, 0⟩ (by simp))
        simpa [finPlace] using this
      · have := key _ (k3.1 ⟨0, p.fin_length, 0⟩ (by simp))
        simpa [finPlace] using this
      · have := key _ (k3.1 ⟨-(p.max_fin_thickness / 2), 0, 0⟩ (by simp))
        simpa [finPlace] using this
      · have := key _ (k3.1 ⟨p.max_fin_thickness / 2, 0, 0⟩ (by simp))
        simpa [finPlace] using this
    · exact w2.2.2

/-- C156, in part: each fin of a Finner touches the body.  At every resolution of the body, fin number `i` stands with the middle of its foot on the body,
from the leading to the trailing edge, as long as the foot is not longer than the cylindrical part of the body.  Missing: the foot is in the body, see
`C156_finner_violated`. -/
theorem C156_finner_partial (h : Heap) (ids : ℕ → ℕ) (hi : Function.Injective ids) (kwargs : Dict String ℝ) (p : Finner.Params)
    (ha : FinnerArgs kwargs p) (hd : 0 ≤ p.diameter) (hn0 : 0 ≤ p.nose_length) (hn1 : p.nose_length < p.total_length)
    (hf : 0 ≤ p.fin_height ∧ 0 ≤ p.fin_length ∧ 0 ≤ p.max_fin_thickness) (hl : p.fin_length ≤ p.total_length - p.nose_length) (lib : Lib) (depth : ℕ) :
    ∃ st, Finner.instanceOf h ids kwargs = .ok st ∧ ∀ n : ℕ, 1 ≤ n → ∃ st' B c, generate lib depth (withResolution st (ids 0) n) = (.ok (), st') ∧
      (st'.heap (ids 0)).mesh = (.ok B, c) ∧ ∀ i < 4, ∃ M c, (st'.heap (ids (4 + i))).mesh = (.ok M, c) ∧ (∀ q ∈ finnerFoot p i, IsVertex q M.tris) ∧
        IsVertex (quarterTurn^[i] ⟨p.total_length - p.fin_length, 0, p.diameter / 2⟩) M.tris ∧
        IsVertex (quarterTurn^[i] ⟨p.total_length, 0, p.diameter / 2⟩) M.tris ∧
        ∀ x, p.total_length - p.fin_length ≤ x → x ≤ p.total_length → OnMesh B.tris (quarterTurn^[i] ⟨x, 0, p.diameter / 2⟩) := by
  obtain ⟨st, s1, s2⟩ := finner_contact h ids hi kwargs p ha hd hn0 hn1 hf lib depth
  refine ⟨st, s1, fun n hn => ?_⟩
  obtain ⟨st', B, c, g1, g2, -, g4⟩ := s2 n hn
  refine ⟨st', B, c, g1, g2, fun i h4 => ?_⟩
  obtain ⟨k1, M, c', k2, k3, -⟩ := g4 i h4
  exact ⟨M, c', k2, fun q hq => k3 q (.tail _ hq), k3 _ (by simp [finnerFoot]), k3 _ (by simp), fun x x0 x1 => k1 x (by linarith) x1⟩

theorem touch_line {R y z : ℝ} (hR : 0 ≤ R) (h1 : Real.sqrt (y ^ 2 + z ^ 2) ≤ R) (h2 : R ≤ z) : y = 0 ∧ z = R := by
  have h3 := (Real.sqrt_le_left hR).1 h1
  have h4 : R ^ 2 ≤ z ^ 2 := by gcongr
  have h5 : y ^ 2 = 0 := le_antisymm (by linarith) (sq_nonneg y)
  refine ⟨by simpa using h5, le_antisymm ?_ h2⟩
  rw [h5, zero_add, Real.sqrt_sq (hR.trans h2)] at h1
  exact h1

/-- C156 is violated by the Finner: its fins are put beside the round body, with the flat foot touching the cylinder.  For all dimensions with fins of some
thickness, at every resolution, the rear corners of the foot are vertices of the fin outside of the body, and body and fin have nothing in common but points of
one line along the body. -/
theorem C156_finner_violated (h : Heap) (ids : ℕ → ℕ) (hi : Function.Injective ids) (kwargs : Dict String ℝ) (p : Finner.Params)
    (ha : FinnerArgs kwargs p) (hd : 0 ≤ p.diameter) (hn0 : 0 ≤ p.nose_length) (hn1 : p.nose_length < p.total_length)
    (hf : 0 ≤ p.fin_height ∧ 0 ≤ p.fin_length ∧ 0 < p.max_fin_thickness) (lib : Lib) (depth : ℕ) :
    ∃ st, Finner.instanceOf h ids kwargs = .ok st ∧ ∀ n : ℕ, 1 ≤ n → ∃ st' B c, generate lib depth (withResolution st (ids 0) n) = (.ok (), st') ∧
      (st'.heap (ids 0)).mesh = (.ok B, c) ∧ ∀ i < 4, ∃ M c, (st'.heap (ids (4 + i))).mesh = (.ok M, c) ∧
        (∀ q ∈ finnerFoot p i, IsVertex q M.tris) ∧ ¬ Rooted B.tris (finnerFoot p i) ∧
        ∀ q, OnMesh B.tris q → OnMesh M.tris q → q = quarterTurn^[i] ⟨q.x, 0, p.diameter / 2⟩ := by
  obtain ⟨st, s1, s2⟩ := finner_contact h ids hi kwargs p ha hd hn0 hn1 ⟨hf.1, hf.2.1, hf.2.2.le⟩ lib depth
  refine ⟨st, s1, fun n hn => ?_⟩
  obtain ⟨st', B, c, g1, g2, g3, g4⟩ := s2 n hn
  refine ⟨st', B, c, g1, g2, fun i h4 => ?_⟩
  obtain ⟨-, M, c', k2, k3, -, k4⟩ := g4 i h4
  have hR : 0 ≤ p.diameter / 2 := by linarith
  refine ⟨M, c', k2, fun q hq => k3 q (.tail _ hq), fun hr => ?_, fun q hB hM => ?_⟩
  · have := InHull.cylinder g3 (hr (quarterTurn^[i] ⟨p.total_length, p.max_fin_thickness / 2, p.diameter / 2⟩) (by simp [finnerFoot]))
    rw [axisDist_turn] at this
    have := (touch_line hR this le_rfl).1
    linarith [hf.2.2]
  · have h1 := InHull.cylinder g3 (OnMesh.inHull hB)
    have h2 := onMesh_aff (a := (quarterTurn^[i] (⟨0, 0, 1⟩ : V)).x) (b := (quarterTurn^[i] (⟨0, 0, 1⟩ : V)).y) (c := (quarterTurn^[i] (⟨0, 0, 1⟩ : V)).z)
      (d := -(p.diameter / 2)) (fun v hv => by have := k4 v hv; unfold along at this; linarith) hM
    unfold axisDist at h1
    interval_cases i
    · simp at h2
      obtain ⟨e1, e2⟩ := touch_line hR h1 (by linarith)
      ext <;> simp [e1, e2]
    · simp [quarterTurn] at h2
      obtain ⟨e1, e2⟩ := touch_line (y := q.z) (z := -q.y) hR (by rw [neg_sq, add_comm]; exact h1) (by linarith)
      ext <;> simp [quarterTurn] <;> linarith
    · simp [quarterTurn] at h2
      obtain ⟨e1, e2⟩ := touch_line (y := q.y) (z := -q.z) hR (by rw [neg_sq]; exact h1) (by linarith)
      ext <;> simp [quarterTurn] <;> linarith
    · simp [quarterTurn] at h2
      obtain ⟨e1, e2⟩ := touch_line (y := q.z) (z := q.y) hR (by rw [add_comm]; exact h1) (by linarith)
      ext <;> simp [quarterTurn] <;> linarith

/-- The foot of a fin that stands on a cone lies outside of it. -/
theorem foot_outside (p : HIFiRE8.Params) (hp : HIFiRE8Ok p) (hb : p.R_nose ≤ p.R_base) (hL : 0.4 ≤ p.L) (B : TriMesh ℝ) (hB : HIFiRE8Fuselage p B) (φ : ℝ) :
    ∀ q ∈ hifire8Foot p φ, ¬ InHull B q := by
  have h0 : 0 ≤ bodyRadius p 0 := by unfold bodyRadius; linarith [hp.base]
  have h1 : 0 ≤ bodyRadius p 0.4 := by
    unfold bodyRadius
    have hs : 0 ≤ (p.R_base - p.R_nose) / p.L := div_nonneg (by linarith) hp.length.le
    have := mul_le_mul_of_nonneg_right hL hs
    rw [HIFiRE8.slope_mul hp] at this
    linarith [hp.nose]
  have key : ∀ x z : ℝ, 0 ≤ bodyRadius p x → z ≠ 0 → ¬ InHull B (radially φ ⟨x, bodyRadius p x, z⟩) := by
    intro x z hx hz hh
    have := InHull.cone (k := (p.R_base - p.R_nose) / p.L) (R := p.R_base) (fun v hv => (hB.cone v hv).1) hh
    rw [HIFiRE8.axisDist_radially] at this
    exact hz (touch_line (y := z) (z := bodyRadius p x) hx (by rw [add_comm]; exact this) le_rfl).1
  intro q hq
  simp only [hifire8Foot, List.mem_cons, List.not_mem_nil, or_false] at hq
  rcases hq with rfl | rfl | rfl | rfl
  · exact key _ _ h0 (by norm_num)
  · exact key _ _ h0 (by norm_num)
  · exact key _ _ h1 (by norm_num)
  · exact key _ _ h1 (by norm_num)

theorem foot_vertices {p : HIFiRE8.Params} {φ : ℝ} {m : TriMesh ℝ} (h : OnFuselage p φ m) : ∀ q ∈ hifire8Foot p φ, IsVertex q m := by
  have h1 := h (0, bodyRadius p 0) (by simp)
  have h2 := h (0.4, bodyRadius p 0.4) (by simp)
  rw [show (0.008 : ℝ) / 2 = 0.004 by norm_num] at h1 h2
  intro q hq
  simp only [hifire8Foot, List.mem_cons, List.not_mem_nil, or_false] at hq
  rcases hq with rfl | rfl | rfl | rfl
  · exact h1.1
  · exact h1.2
  · exact h2.1
  · exact h2.2

/-- C156 is violated by the HIFiRE 8: for all sensible dimensions, at every resolution of all parts, the four corners of the foot of each of the three fins are
vertices of the fin and lie outside of the fuselage. -/
theorem C156_hifire8_violated (ptan : ℝ → ℝ) (hT : FloatTan ptan) (h : Heap) (ids : ℕ → ℕ) (hi : Function.Injective ids) (kwargs : Dict String ℝ)
    (p : HIFiRE8.Params) (ha : HIFiRE8Args kwargs p) (hp : HIFiRE8Ok p) (hb : p.R_nose ≤ p.R_base) (hL : 0.4 ≤ p.L) :
    ∃ st, HIFiRE8.instanceOf bisect01 ptan h ids kwargs = .ok st ∧ ∀ st0 lib depth, Rescaled st st0 →
      ∃ st' B c, generate lib depth st0 = (.ok (), st') ∧ (st'.heap (ids 0)).mesh = (.ok B, c) ∧
      ∀ e ∈ [(3, Real.pi / 4), (4, 3 * Real.pi / 4), (5, -(Real.pi / 2))], ∃ M c, (st'.heap (ids e.1)).mesh = (.ok M, c) ∧
        (∀ q ∈ hifire8Foot p e.2, IsVertex q M.tris ∧ ¬ InHull B.tris q) ∧ ¬ Rooted B.tris (hifire8Foot p e.2) := by
  obtain ⟨st, N, b1, -, b4⟩ := hifire8_sizes ptan hT h ids hi kwargs p ha hp hb hL
  refine ⟨st, b1, fun st0 lib depth hr => ?_⟩
  obtain ⟨st', g1, g2⟩ := b4 st0 lib depth hr
  obtain ⟨B, c, f1, f2, -⟩ := g2.fuselage
  have key : ∀ φ M, OnFuselage p φ M → (∀ q ∈ hifire8Foot p φ, IsVertex q M ∧ ¬ InHull B.tris q) ∧ ¬ Rooted B.tris (hifire8Foot p φ) := fun φ M hM =>
    ⟨fun q hq => ⟨foot_vertices hM q hq, foot_outside p hp hb hL _ f2 φ q hq⟩,
      fun hr => foot_outside p hp hb hL _ f2 φ (radially φ ⟨0, bodyRadius p 0, 0.004⟩) (by simp [hifire8Foot]) (hr _ (by simp [hifire8Foot]))⟩
  refine ⟨st', B, c, g1, f1, fun e he => ?_⟩
  simp only [List.mem_cons, List.not_mem_nil, or_false] at he
  rcases he with rfl | rfl | rfl
  · obtain ⟨M, c', m1, m2⟩ := g2.fin1
    exact ⟨M, c', m1, key _ _ m2.foot⟩
  · obtain ⟨M, c', m1, m2⟩ := g2.fin2
    exact ⟨M, c', m1, key _ _ m2.foot⟩
  · obtain ⟨M, c', m1, m2, -⟩ := g2.fin3
    exact ⟨M, c', m1, key _ _ m2⟩

/-- The dimensions of the default Finner meet the hypotheses of `C156_finner_partial` and `C156_finner_violated`: its foot has corners at
`(9, 0, 0.5)` and `(10, ±0.04, 0.5)`. -/
example : FinnerArgs [] ⟨1, 10, 2.84, 1, 1, 0.08⟩ ∧ (2.84 : ℝ) < 10 ∧ (1 : ℝ) ≤ 10 - 2.84 ∧
    finnerFoot ⟨1, 10, 2.84, 1, 1, 0.08⟩ 0 = [⟨9, 0, 0.5⟩, ⟨10, -0.04, 0.5⟩, ⟨10, 0.04, 0.5⟩] := by
  refine ⟨⟨by decide, .inr ⟨?_, rfl⟩, .inr ⟨?_, rfl⟩, .inr ⟨?_, rfl⟩, .inr ⟨?_, rfl⟩, .inr ⟨?_, rfl⟩, .inr ⟨?_, rfl⟩⟩, by norm_num, by norm_num, ?_⟩
  all_goals first | simp | skip
  simp only [finnerFoot, Function.iterate_zero, id, List.cons.injEq, and_true]
  refine ⟨?_, ?_, ?_⟩ <;> ext <;> norm_num

/-- A foot that is rooted: the middle of a triangle and one of its corners lie in its hull; a point beside it does not. -/
example : Rooted [⟨⟨0, 0, 0⟩, ⟨3, 0, 0⟩, ⟨0, 3, 0⟩⟩] [⟨1, 1, 0⟩, ⟨3, 0, 0⟩] ∧ ¬ Rooted [⟨⟨0, 0, 0⟩, ⟨3, 0, 0⟩, ⟨0, 3, 0⟩⟩] [⟨1, 1, 0⟩, ⟨1, 1, 1⟩] := by
  constructor
  · intro q hq
    refine OnMesh.inHull ?_
    simp only [List.mem_cons, List.not_mem_nil, or_false] at hq
    rcases hq with rfl | rfl
    · exact ⟨_, List.mem_cons_self, 1 / 3, 1 / 3, 1 / 3, by norm_num, by norm_num, by norm_num, by norm_num, by ext <;> norm_num⟩
    · exact ⟨_, List.mem_cons_self, 0, 1, 0, by norm_num, by norm_num, by norm_num, by norm_num, by ext <;> norm_num⟩
  · intro hr
    have := hr ⟨1, 1, 1⟩ (by simp) 0 0 (-1) 0 (by
      rintro v ⟨t, ht, hv⟩
      simp only [List.mem_cons, List.not_mem_nil, or_false] at ht
      subst ht
      rcases hv with rfl | rfl | rfl <;> simp)
    norm_num at this

/-- The HIFiRE 8 without arguments meets the hypotheses of `C156_hifire8_violated`. -/
example : HIFiRE8Args [] hifire8Default ∧ HIFiRE8Ok hifire8Default ∧ hifire8Default.R_nose ≤ hifire8Default.R_base ∧ 0.4 ≤ hifire8Default.L :=
  ⟨hifire8Default_ok.1, hifire8Default_ok.2, by simp only [hifire8Default]; norm_num, by simp only [hifire8Default]; norm_num⟩

end HV
