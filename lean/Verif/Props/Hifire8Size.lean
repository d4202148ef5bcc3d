import Verif.Props.FlatSize
import Verif.Props.HtvSize
import Verif.Props.X43Size
import Verif.Props.Hifire8

/-!
# C148: the dimensions of the assembled HIFiRE 8, and its third fin
-/

namespace HV
open Spec Veh

/-! ## Composites of revolved components -/

theorem coneDist_centre {k R : ℝ} (p q r s : V) (hp : axisDist p + k * p.x ≤ R) (hq : axisDist q + k * q.x ≤ R) (hr : axisDist r + k * r.x ≤ R)
    (hs : axisDist s + k * s.x ≤ R) :
    axisDist (cellCentre MeshArith.real p q r s) + k * (cellCentre MeshArith.real p q r s).x ≤ R := by
  have key : ∀ v : V, axisDist v + k * v.x ≤ R ↔ axisDist v ≤ R - k * v.x := fun v => by constructor <;> intro h <;> linarith
  rw [key, axisDist_le_iff] at *
  intro a b hab
  have e := aff_centre k a b 0 p q r s
  unfold aff at e
  have := hp a b hab
  have := hq a b hab
  have := hr a b hab
  have := hs a b hab
  linarith

/-- C137 for composites of revolved components: the mesh lies between any two planes across the axis between which the profiles lie, inside of any cone
about the axis inside of which they lie, and contains each profile at `n + 1` evenly spaced parameters, above, below, to the left and to the right of the
axis. -/
theorem C137_composite (h : Heap) (id : ℕ) (ids : List ℕ) (lines : List PathObj) (fs : List (ℝ → V)) (hn : ids.Nodup)
    (hid : id ∉ ids) (hne : ids ≠ []) (hg : (h id).gen = .composite ids)
    (hc : List.Forall₂ (fun k line => NewRevolved (h k) line) ids lines)
    (hl : List.Forall₂ (fun (line : PathObj) (f : ℝ → V) => ∀ t, 0 ≤ t → t ≤ 1 → line.call t = .ok (f t)) lines fs)
    (hz : ∀ f ∈ fs, ∀ t, 0 ≤ t → t ≤ 1 → (f t).z = 0)
    (n : ℕ) (hn1 : 1 ≤ n) (hres : (h id).stl_resolution = .int n) (hm : (h id).mesh_ = none) (hs : (h id).surfaces = none)
    (hcl : (h id).clustering = {}) :
    ∃ h' M c', generatePatches h id = (.ok (), h') ∧ (h' id).mesh = (.ok M, c') ∧
      (∀ lo hi : ℝ, (∀ f ∈ fs, ∀ t, 0 ≤ t → t ≤ 1 → lo ≤ (f t).x ∧ (f t).x ≤ hi) → ∀ v, IsVertex v M.tris → lo ≤ v.x ∧ v.x ≤ hi) ∧
      (∀ k R : ℝ, (∀ f ∈ fs, ∀ t, 0 ≤ t → t ≤ 1 → |(f t).y| + k * (f t).x ≤ R) → ∀ v, IsVertex v M.tris → axisDist v + k * v.x ≤ R) ∧
      ∀ f ∈ fs, ∀ i ≤ n, ∀ p, p = f ((i : ℝ) / n) → IsVertex ⟨p.x, p.y, 0⟩ M.tris ∧ IsVertex ⟨p.x, -p.y, 0⟩ M.tris ∧ IsVertex ⟨p.x, 0, p.y⟩ M.tris ∧
        IsVertex ⟨p.x, 0, -p.y⟩ M.tris := by
  obtain ⟨h', M, c', g1, g2, -, g3⟩ := revolved_composite_mesh h id ids lines fs hn hid hne hg hc hl n hn1 hres hm hs hcl
  have hu : ∀ i : ℕ, i ≤ n → 0 ≤ (i : ℝ) / n ∧ (i : ℝ) / n ≤ 1 := fun i hi => unit_div n i hn1 hi
  have keep : ∀ K : V → Prop, (∀ p q r s : V, K p → K q → K r → K s → K (cellCentre MeshArith.real p q r s)) →
      (∀ f ∈ fs, ∀ a t, 0 ≤ t → t ≤ 1 → K (revolveRot a (f t))) → ∀ v, IsVertex v M.tris → K v := by
    intro K hK hp v hv
    rw [g3, isVertex_flatten] at hv
    obtain ⟨m, hm, hv⟩ := hv
    obtain ⟨P, hP, rfl⟩ := List.mem_map.1 hm
    obtain ⟨f, hf, hP⟩ := List.mem_flatMap.1 hP
    obtain ⟨k, -, rfl⟩ := List.mem_map.1 hP
    exact grid_keeps n _ K hK (fun i hi j _ => hp f hf _ _ (hu i hi).1 (hu i hi).2) v hv
  refine ⟨h', M, c', g1, g2, ?_, ?_, ?_⟩
  · intro lo hi hx
    refine keep (fun v => lo ≤ v.x ∧ v.x ≤ hi) ?_ (fun f hf a t h0 h1 => hx f hf t h0 h1)
    intro p q r s hp hq hr hs
    have e := aff_centre 1 0 0 0 p q r s
    unfold aff at e
    constructor <;> linarith [hp.1, hp.2, hq.1, hq.2, hr.1, hr.2, hs.1, hs.2]
  · intro k R hR
    refine keep (fun v => axisDist v + k * v.x ≤ R) (fun p q r s => coneDist_centre p q r s) ?_
    intro f hf a t h0 h1
    show axisDist (revolveRot a (f t)) + k * (revolveRot a (f t)).x ≤ R
    rw [axisDist_revolveRot]
    refine le_trans (le_of_eq ?_) (hR f hf t h0 h1)
    unfold axisDist
    rw [hz f hf t h0 h1, ← Real.sqrt_sq_eq_abs]
    simp [revolveRot]
  · rintro f hf i hi p rfl
    have hv : ∀ k : ℕ, k < 4 → IsVertex (revolveRot ((k : ℝ) * Real.pi / 2) (f ((i : ℝ) / n))) M.tris := by
      intro k hk
      rw [g3, isVertex_flatten]
      have := gridMesh_vertex n n (revolveGrid f n k) i 0 hn1 hn1 hi (by omega)
      refine ⟨_, List.mem_map.2 ⟨revolveGrid f n k, List.mem_flatMap.2 ⟨f, hf, List.mem_map.2 ⟨k, List.mem_range.2 hk, rfl⟩⟩, rfl⟩, ?_⟩
      simpa [revolveGrid] using this
    have w0 := hv 0 (by omega)
    have w1 := hv 1 (by omega)
    have w2 := hv 2 (by omega)
    have w3 := hv 3 (by omega)
    have e2 : ((2 : ℕ) : ℝ) * Real.pi / 2 = Real.pi := by push_cast; ring
    have e3 : ((3 : ℕ) : ℝ) * Real.pi / 2 = Real.pi + Real.pi / 2 := by push_cast; ring
    rw [e2] at w2
    rw [e3] at w3
    have z := hz f hf _ (hu i hi).1 (hu i hi).2
    simp [revolveRot, Real.sin_add, Real.cos_add, z] at w0 w1 w2 w3
    exact ⟨w0, w2, w3, w1⟩

/-! ## What is claimed -/

namespace Spec

/-- The radius of the fuselage of the HIFiRE 8 at `x`. -/
noncomputable def bodyRadius (p : HIFiRE8.Params) (x : ℝ) : ℝ := p.R_base - x * ((p.R_base - p.R_nose) / p.L)

/-- The fuselage reaches from the end of the nozzle to `L`, and is a cone from `R_nose` to `R_base` with a cylinder behind. -/
structure HIFiRE8Fuselage (p : HIFiRE8.Params) (m : TriMesh ℝ) : Prop where
  length : Spans (·.x) (-p.nozzle_length) p.L m
  cone : ∀ v, IsVertex v m → axisDist v ≤ bodyRadius p v.x ∧ axisDist v ≤ p.R_base
  nose : ∀ s : ℝ, s = 1 ∨ s = -1 → IsVertex ⟨p.L, s * p.R_nose, 0⟩ m ∧ IsVertex ⟨p.L, 0, s * p.R_nose⟩ m

/-- The wings, which do not depend on the parameters: 1.3 long in front of flaps of 0.2, 0.4 wide to each side, 0.04 thick, with a leading edge of at most
0.055. -/
structure HIFiRE8Wing (m : TriMesh ℝ) : Prop where
  within : ∀ v, IsVertex v m → -0.055 ≤ v.x ∧ v.x ≤ 1.555 ∧ |v.y| ≤ 0.455 ∧ |v.z| ≤ 0.02 + 1e-12
  front : IsVertex ⟨1.51, 0, 0⟩ m
  sides : ∀ s : ℝ, s = 1 ∨ s = -1 → IsVertex ⟨0.2, s * 0.41, 0⟩ m
  flaps : ∀ s : ℝ, s = 1 ∨ s = -1 → IsVertex ⟨0, s * 0.4, 0⟩ m
  thick : IsVertex ⟨0.2, 0, 0.02⟩ m ∧ IsVertex ⟨0.2, 0, -0.02⟩ m

/-- The nose continues the fuselage by 0.5, from its radius to a height of 0.01. -/
structure HIFiRE8Nose (p : HIFiRE8.Params) (m : TriMesh ℝ) : Prop where
  length : Spans (·.x) p.L (p.L + 0.5) m
  width : Spans (·.y) (-p.R_nose) p.R_nose m
  height : Spans (·.z) (-p.R_nose) p.R_nose m
  tip : IsVertex ⟨p.L + 0.5, 0, 0.005⟩ m ∧ IsVertex ⟨p.L + 0.5, 0, -0.005⟩ m

/-- Turned about the axis of the fuselage by the angle `φ`. -/
noncomputable def radially (φ : ℝ) (u : V) : V := ⟨u.x, u.y * Real.cos φ - u.z * Real.sin φ, u.y * Real.sin φ + u.z * Real.cos φ⟩

/-- A fin in the direction `φ` has its foot on the fuselage, between `x = 0` and `x = 0.4`. -/
def OnFuselage (p : HIFiRE8.Params) (φ : ℝ) (m : TriMesh ℝ) : Prop := StandsOver m (radially φ) 0.008 [(0, bodyRadius p 0), (0.4, bodyRadius p 0.4)]

/-- Somewhere the mesh stands out of the fuselage by `h`. -/
def StandsOut (p : HIFiRE8.Params) (h : ℝ) (m : TriMesh ℝ) : Prop := ∃ v, IsVertex v m ∧ bodyRadius p v.x + h ≤ axisDist v

/-- A fin of height 0.16 in the direction `φ`. -/
structure HIFiRE8Fin (p : HIFiRE8.Params) (φ : ℝ) (m : TriMesh ℝ) : Prop where
  within : ∀ v, IsVertex v m → ∃ u, v = radially φ u ∧ -0.055 ≤ u.x ∧ u.x ≤ 0.455 ∧ bodyRadius p 0.4 - 0.055 ≤ u.y ∧
    u.y ≤ bodyRadius p u.x + 0.16 + 0.055 * (1 + (p.R_base - p.R_nose) / p.L) ∧ |u.z| ≤ 0.004 + 1e-12
  foot : OnFuselage p φ m
  top : StandsOver m (radially φ) 0.008 [(0.08, bodyRadius p 0.08 + 0.16), (0.28, bodyRadius p 0.28 + 0.16)]
  out : StandsOut p 0.16 m

end Spec

namespace HIFiRE8
variable {p : Params}

theorem leWidth_le {r : ℝ} (h : r ∈ Set.Icc (0 : ℝ) 1) : 0.01 * (1 - r) ^ 2 + 2 * 0.1 * r * (1 - r) + 0.01 * r ^ 2 ≤ 0.055 := by
  nlinarith [sq_nonneg (r - 0.5)]

/-- The line of the fuselage, its ends, and where it is at the base radius. -/
theorem fuse_profile (hp : HIFiRE8Ok p) {P : PathObj} (hP : fuseLine p (sl p) = .ok P) : (∀ t ∈ Set.Icc (0 : ℝ) 1,
      ∃ e ∈ fuse p, ∃ u ∈ Set.Icc (0 : ℝ) 1, fnOf P t = lineAt e.1 e.2 u) ∧
    ∃ a b : ℝ, 0 ≤ a ∧ a < b ∧ b ≤ 1 ∧ ∀ t, a < t → t < b → (fnOf P t).y = p.R_base := by
  have h1 := hp.length
  have h2 := hp.base
  have h4 := hp.nozzle
  have hd : ∀ e ∈ fuse p, e.1 ≠ e.2 := by
    intro e he
    simp only [fuse, List.mem_cons, List.not_mem_nil, or_false] at he
    rcases he with rfl | rfl | rfl <;> intro hc
    · have := congrArg Vec.x hc; simp only at this; linarith
    · have := congrArg Vec.x hc; simp only at this; linarith
    · have := congrArg Vec.y hc; simp only at this; linarith
  obtain ⟨P', k1, -, -, -, k5, -⟩ := lines_edge (fuse p) (by simp [fuse]) hd (by
    intro i hi
    simp only [fuse, List.length_cons, List.length_nil] at hi
    obtain rfl | rfl : i = 0 ∨ i = 1 := by omega
    · rfl
    · rfl)
  rw [fuseLine_eq hp.length] at hP
  have hP0 := hP
  rw [k1] at hP
  obtain rfl := Except.ok.inj hP
  refine ⟨k5, ?_⟩
  set segs := (fuse p).map fun e => Line e.1 e.2 with hsegs
  have hg : ∀ s ∈ segs, GoodSeg s := by
    intro s hs
    obtain ⟨e, he, rfl⟩ := List.mem_map.1 hs
    exact goodLine _ _ (hd e he)
  have hne : segs ≠ [] := by simp [hsegs, fuse]
  have hpos : ∀ s ∈ segs, 0 < lenOf s := fun s hs => ((hg s hs).len).2
  refine ⟨bp lenOf segs 1, bp lenOf segs 2, ?_, Polyline.bp_succ lenOf segs hpos 1 (by simp [hsegs, fuse]), ?_, ?_⟩
  · have := Polyline.bp_le lenOf segs hpos (show 0 ≤ 1 by omega) (by simp [hsegs, fuse])
    rwa [Polyline.bp_zero] at this
  · have := Polyline.bp_le lenOf segs hpos (show 2 ≤ 3 by omega) (by simp [hsegs, fuse])
    rwa [show bp lenOf segs 3 = 1 from Polyline.bp_last lenOf segs hne hpos] at this
  · intro t a b
    obtain ⟨u, -, e⟩ := polyline_within segs hne hg P' hP0 1 (by simp [hsegs, fuse]) t a b
    rw [e, show (segs[1]'(by simp [hsegs, fuse]) : PathObj) = Line ⟨0, p.R_base, 0⟩ ⟨-p.nozzle_length, p.R_base, 0⟩ from rfl, fnOf_line]
    show p.R_base * (1 - u) + p.R_base * u = p.R_base
    ring

theorem slope_mul (hp : HIFiRE8Ok p) : p.L * ((p.R_base - p.R_nose) / p.L) = p.R_base - p.R_nose := mul_div_cancel₀ _ hp.length.ne'

/-- The fuselage of a given resolution. -/
theorem fuselage_sized (hp : HIFiRE8Ok p) (hb : p.R_nose ≤ p.R_base) {P : PathObj} (hP : fuseLine p (sl p) = .ok P) :
    ∃ N : ℕ, ∀ (h : Heap) (ids : ℕ → ℕ), Function.Injective ids → ∀ (n : ℕ), 1 ≤ n → ∀ (name : Option String),
      h (ids 0) = { fuselageComp ids with stl_resolution := .int n, name := name } → NewRevolved (h (ids 6)) P →
      NewRevolved (h (ids 7)) (baseLine p (sl p)) →
      ∃ g c, generatePatches h (ids 0) = (.ok (), g) ∧ pipeline 0 (g (ids 0)) = (.ok (), c) ∧
        ∃ M c', c.mesh = (.ok M, c') ∧ HIFiRE8Fuselage p M.tris ∧
          (N ≤ n → Spans (·.y) (-p.R_base) p.R_base M.tris ∧ Spans (·.z) (-p.R_base) p.R_base M.tris) := by
  have hl := hp.length
  have hz := hp.nozzle
  have hR : (0 : ℝ) < p.R_nose := by linarith [hp.nose]
  obtain ⟨P', k1, k2, k3, k4, -⟩ := fuse_line hp
  rw [hP] at k1
  obtain rfl := Except.ok.inj k1
  obtain ⟨q1, a, b, a0, ab, b1, q2⟩ := fuse_profile hp hP
  obtain ⟨N, hN⟩ := grid_hits a b a0 ab b1
  refine ⟨N, fun h ids hi n hn name h0 h6 h7 => ?_⟩
  rw [baseLine_eq hp.length] at h7
  set k := (p.R_base - p.R_nose) / p.L with hk
  have hkL : p.L * k = p.R_base - p.R_nose := slope_mul hp
  have hk0 : 0 ≤ k := div_nonneg (by linarith) hl.le
  have onP : ∀ t, 0 ≤ t → t ≤ 1 → (-p.nozzle_length ≤ (fnOf P t).x ∧ (fnOf P t).x ≤ p.L) ∧ 0 ≤ (fnOf P t).y ∧ (fnOf P t).y ≤ p.R_base ∧
      (fnOf P t).y + k * (fnOf P t).x ≤ p.R_base ∧ (fnOf P t).z = 0 := by
    intro t t0 t1
    obtain ⟨e, he, u, ⟨u0, u1⟩, hq⟩ := q1 t ⟨t0, t1⟩
    rw [hq]
    have m1 := mul_nonneg hl.le u0
    have m2 := mul_nonneg hl.le (sub_nonneg.2 u1)
    have m3 := mul_nonneg hz.le u0
    have m4 := mul_nonneg hz.le (sub_nonneg.2 u1)
    have m5 := mul_nonneg hp.base.le u0
    have m6 := mul_nonneg hp.base.le (sub_nonneg.2 u1)
    have m7 := mul_nonneg hR.le u0
    have m8 := mul_nonneg hR.le (sub_nonneg.2 u1)
    have m9 := mul_nonneg (sub_nonneg.2 hb) (sub_nonneg.2 u1)
    have m10 := mul_nonneg hk0 hz.le
    have m11 := mul_nonneg m10 u0
    simp only [fuse, List.mem_cons, List.not_mem_nil, or_false] at he
    rcases he with rfl | rfl | rfl
    · refine ⟨⟨?_, ?_⟩, ?_, ?_, ?_, ?_⟩ <;> simp only [lineAt, Vec.add_x, Vec.mul_x, Vec.add_y, Vec.mul_y, Vec.add_z, Vec.mul_z]
      · linarith
      · linarith
      · linarith
      · linarith
      · have : k * (p.L * (1 - u) + 0 * u) = (p.R_base - p.R_nose) * (1 - u) := by rw [← hkL]; ring
        rw [this]; linarith
      · ring
    · refine ⟨⟨?_, ?_⟩, ?_, ?_, ?_, ?_⟩ <;> simp only [lineAt, Vec.add_x, Vec.mul_x, Vec.add_y, Vec.mul_y, Vec.add_z, Vec.mul_z] <;> linarith
    · refine ⟨⟨?_, ?_⟩, ?_, ?_, ?_, ?_⟩ <;> simp only [lineAt, Vec.add_x, Vec.mul_x, Vec.add_y, Vec.mul_y, Vec.add_z, Vec.mul_z] <;> linarith
  have onB : ∀ t, 0 ≤ t → t ≤ 1 → (lineAt (⟨p.L, 0, 0⟩ : V) ⟨p.L, p.R_nose, 0⟩ t).x = p.L ∧
      (lineAt (⟨p.L, 0, 0⟩ : V) ⟨p.L, p.R_nose, 0⟩ t).y = p.R_nose * t ∧ (lineAt (⟨p.L, 0, 0⟩ : V) ⟨p.L, p.R_nose, 0⟩ t).z = 0 := by
    intro t _ _
    refine ⟨?_, ?_, ?_⟩ <;> simp only [lineAt, Vec.add_x, Vec.mul_x, Vec.add_y, Vec.mul_y, Vec.add_z, Vec.mul_z] <;> ring
  obtain ⟨g, M, c, g1, g2, g3, g4, g5⟩ := C137_composite h (ids 0) [ids 6, ids 7] [P, Line ⟨p.L, 0, 0⟩ ⟨p.L, p.R_nose, 0⟩]
    [fnOf P, lineAt ⟨p.L, 0, 0⟩ ⟨p.L, p.R_nose, 0⟩] (by simp [hi.eq_iff]) (by simp [hi.eq_iff]) (by simp) (by rw [h0]; rfl)
    (.cons h6 (.cons h7 .nil)) (.cons (fun t _ _ => k2 t) (.cons (fun t _ _ => rfl) .nil))
    (by
      intro f hf t t0 t1
      simp only [List.mem_cons, List.not_mem_nil, or_false] at hf
      rcases hf with rfl | rfl
      · exact (onP t t0 t1).2.2.2.2
      · exact (onB t t0 t1).2.2) n hn (by rw [h0]) (by rw [h0]; rfl) (by rw [h0]; rfl) (by rw [h0]; rfl)
  obtain ⟨Pt, Rn, Sf, hopt⟩ := generatePatches_opts h (ids 0) (by rw [h0]; simp [Comp.children, fuselageComp, hi.eq_iff])
  rw [g1, h0] at hopt
  simp only at hopt
  have hn0 : (n : ℝ) ≠ 0 := by positivity
  have cone0 := g4 0 p.R_base (by
    intro f hf t t0 t1
    simp only [List.mem_cons, List.not_mem_nil, or_false] at hf
    rcases hf with rfl | rfl
    · rw [abs_of_nonneg (onP t t0 t1).2.1]; linarith [(onP t t0 t1).2.2.1]
    · rw [(onB t t0 t1).2.1, abs_of_nonneg (mul_nonneg hR.le t0)]
      have := mul_le_mul_of_nonneg_left t1 hR.le
      linarith)
  have rb : ∀ v, IsVertex v M.tris → axisDist v ≤ p.R_base := fun v hv => by have := cone0 v hv; linarith
  refine ⟨g, g (ids 0), g1, pipeline_plain _ (by rw [hopt]; rfl) (by rw [hopt]; rfl) (by rw [hopt]; rfl) (by rw [hopt]; rfl), M, c, g2, ⟨⟨?_, ?_, ?_⟩, ?_, ?_⟩, ?_⟩
  · refine g3 _ _ ?_
    intro f hf t t0 t1
    simp only [List.mem_cons, List.not_mem_nil, or_false] at hf
    rcases hf with rfl | rfl
    · exact (onP t t0 t1).1
    · rw [(onB t t0 t1).1]; exact ⟨by linarith, le_rfl⟩
  · have := (g5 _ List.mem_cons_self n le_rfl _ rfl).1
    rw [div_self hn0, k4] at this
    exact ⟨_, this, rfl⟩
  · have := (g5 _ List.mem_cons_self 0 (by omega) _ rfl).1
    rw [Nat.cast_zero, zero_div, k3] at this
    exact ⟨_, this, rfl⟩
  · intro v hv
    refine ⟨?_, rb v hv⟩
    have := g4 k p.R_base (by
      intro f hf t t0 t1
      simp only [List.mem_cons, List.not_mem_nil, or_false] at hf
      rcases hf with rfl | rfl
      · rw [abs_of_nonneg (onP t t0 t1).2.1]; exact (onP t t0 t1).2.2.2.1
      · rw [(onB t t0 t1).2.1, (onB t t0 t1).1, abs_of_nonneg (mul_nonneg hR.le t0), mul_comm k, hkL]
        have := mul_le_mul_of_nonneg_left t1 hR.le
        linarith) v hv
    unfold bodyRadius
    linarith
  · have := g5 _ List.mem_cons_self 0 (by omega) _ rfl
    rw [Nat.cast_zero, zero_div, k3] at this
    rintro s (rfl | rfl)
    · simp only [one_mul]; exact ⟨this.1, this.2.2.1⟩
    · simp only [neg_mul, one_mul]; exact ⟨this.2.1, this.2.2.2⟩
  · intro hNn
    obtain ⟨i, hin, i1, i2⟩ := hN n hNn
    have v := g5 _ List.mem_cons_self i hin _ rfl
    rw [q2 _ i1 i2] at v
    have dist : ∀ v, IsVertex v M.tris → |v.y| ≤ p.R_base ∧ |v.z| ≤ p.R_base := by
      intro v hv
      have := rb v hv
      unfold axisDist at this
      constructor
      · exact (Real.abs_le_sqrt (by nlinarith [sq_nonneg v.z])).trans this
      · exact (Real.abs_le_sqrt (by nlinarith [sq_nonneg v.y])).trans this
    exact ⟨⟨fun w hw => abs_le.1 (dist w hw).1, ⟨_, v.2.1, rfl⟩, ⟨_, v.1, rfl⟩⟩, ⟨fun w hw => abs_le.1 (dist w hw).2, ⟨_, v.2.2.2, rfl⟩, ⟨_, v.2.2.1, rfl⟩⟩⟩

/-! ## The wing -/

theorem wing_planform {ptan : ℝ → ℝ} (hT : FloatTan ptan) : ∃ a L, wingArgs = .ok a ∧
    SmoothWing ptan (fun x y => (0.2 ≤ x ∧ x ≤ 1.5 ∧ 0 ≤ y) ∧ y ≤ 0.4) a L (fun _ _ => -0.02) (fun _ _ => 0.02)
      (fun r => 0.01 * (1 - r) ^ 2 + 2 * 0.1 * r * (1 - r) + 0.01 * r ^ 2) 1e-12 ∧
    FlatPlanform a L (fun r => 0.01 * (1 - r) ^ 2 + 2 * 0.1 * r * (1 - r) + 0.01 * r ^ 2) 0.055 ∧
    a.t_B1 = none ∧ a.close_wing = false ∧ (L 0).x ≤ a.A1.x ∧ a.A1.x ≤ (L 1).x ∧
    a.A0 = ⟨0.2, 0, 0⟩ ∧ a.B0 = ⟨0.2, 0.4, 0⟩ ∧ a.TT = ⟨1.5, 0, 0⟩ ∧ a.flap_length = 0.2 ∧ a.flap_angle = 0 := by
  have hd : ∀ e ∈ [((⟨0.2, 0.4, 0⟩ : V), (⟨0.2 + 0.1 * 1.3, 0.4, 0⟩ : V)),
      (⟨0.2 + 0.1 * 1.3, 0.4, 0⟩, ⟨0.2 + 0.5 * 1.3, 0.5 * 0.4, 0⟩), (⟨0.2 + 0.5 * 1.3, 0.5 * 0.4, 0⟩, ⟨0.2 + 1.3, 0.13 * 0.4, 0⟩),
      (⟨0.2 + 1.3, 0.13 * 0.4, 0⟩, ⟨0.2 + 1.3, 0, 0⟩)], e.1 ≠ e.2 := by
    intro e he
    simp only [List.mem_cons, List.not_mem_nil, or_false] at he
    rcases he with rfl | rfl | rfl | rfl <;> intro hc
    · have := congrArg Vec.x hc; simp only at this; norm_num at this
    · have := congrArg Vec.x hc; simp only at this; norm_num at this
    · have := congrArg Vec.x hc; simp only at this; norm_num at this
    · have := congrArg Vec.y hc; simp only at this; norm_num at this
  have hj : ∀ (i : ℕ) (hi : i + 1 < [((⟨0.2, 0.4, 0⟩ : V), (⟨0.2 + 0.1 * 1.3, 0.4, 0⟩ : V)),
      (⟨0.2 + 0.1 * 1.3, 0.4, 0⟩, ⟨0.2 + 0.5 * 1.3, 0.5 * 0.4, 0⟩), (⟨0.2 + 0.5 * 1.3, 0.5 * 0.4, 0⟩, ⟨0.2 + 1.3, 0.13 * 0.4, 0⟩),
      (⟨0.2 + 1.3, 0.13 * 0.4, 0⟩, ⟨0.2 + 1.3, 0, 0⟩)].length), ([((⟨0.2, 0.4, 0⟩ : V), (⟨0.2 + 0.1 * 1.3, 0.4, 0⟩ : V)),
      (⟨0.2 + 0.1 * 1.3, 0.4, 0⟩, ⟨0.2 + 0.5 * 1.3, 0.5 * 0.4, 0⟩), (⟨0.2 + 0.5 * 1.3, 0.5 * 0.4, 0⟩, ⟨0.2 + 1.3, 0.13 * 0.4, 0⟩),
      (⟨0.2 + 1.3, 0.13 * 0.4, 0⟩, ⟨0.2 + 1.3, 0, 0⟩)][i]'(by omega)).2 = ([((⟨0.2, 0.4, 0⟩ : V), (⟨0.2 + 0.1 * 1.3, 0.4, 0⟩ : V)),
      (⟨0.2 + 0.1 * 1.3, 0.4, 0⟩, ⟨0.2 + 0.5 * 1.3, 0.5 * 0.4, 0⟩), (⟨0.2 + 0.5 * 1.3, 0.5 * 0.4, 0⟩, ⟨0.2 + 1.3, 0.13 * 0.4, 0⟩),
      (⟨0.2 + 1.3, 0.13 * 0.4, 0⟩, ⟨0.2 + 1.3, 0, 0⟩)][i + 1]'hi).1 := by
    intro i hi
    simp only [List.length_cons, List.length_nil] at hi
    obtain rfl | rfl | rfl : i = 0 ∨ i = 1 ∨ i = 2 := by omega
    · rfl
    · rfl
    · rfl
  obtain ⟨P, h1, h2, -⟩ := lines_edge _ (by simp) hd hj
  obtain ⟨h3, h4, hm, hz⟩ := X43.edge_mono (by simp) hd hj
    (by
      intro e he
      simp only [List.mem_cons, List.not_mem_nil, or_false] at he
      rcases he with rfl | rfl | rfl | rfl <;> norm_num)
    (by
      intro e he
      simp only [List.mem_cons, List.not_mem_nil, or_false] at he
      rcases he with rfl | rfl | rfl | rfl <;> norm_num)
    (by
      intro e he
      simp only [List.mem_cons, List.not_mem_nil, or_false] at he
      rcases he with rfl | rfl | rfl | rfl <;> exact ⟨rfl, rfl⟩) h1 h2
  simp only [List.map_cons, List.map_nil] at h1
  simp only [List.head_cons, List.getLast_cons, List.getLast_singleton, ne_eq, reduceCtorEq, not_false_eq_true, List.cons_ne_nil] at h3 h4
  refine ⟨{ A0 := ⟨0.2, 0, 0⟩, A1 := ⟨0.2 + 0.5 * 1.3, 0, 0⟩, TT := ⟨0.2 + 1.3, 0, 0⟩, B0 := ⟨0.2, 0.4, 0⟩, line := P,
            top_tf := uniformThickness 0.04 "top", bot_tf := uniformThickness 0.04 "bot", LE_wf := some leWidth, flap_length := 0.2 },
    fnOf P, by unfold wingArgs; simp only; rw [h1, ok_bind]; rfl,
    ⟨hT.like, lower_bezier, X43.up_custom, rfl, .inl rfl, h2, h3, h4,
     fun x y z _ => by simp [uniformThickness]; norm_num, fun x y z _ => by simp [uniformThickness]; norm_num, ?_, .inl rfl,
     fun t _ => leWidth_eq t, ?_, ?_, ?_, ?_⟩, ⟨rfl, rfl, hz, fun t ht => leWidth_le ht⟩, rfl, rfl, ?_, ?_, rfl, rfl, by norm_num, rfl, rfl⟩
  · refine (liesOver_box hm 0.2 1.5 (by rw [h3]) (by rw [h4]; norm_num) (by norm_num) (by norm_num) le_rfl le_rfl (by rw [h4])).and
      (liesOver_low hm rfl rfl (by rw [h4]) 0.4 (by rw [h3]))
  · intro t ht; norm_num
  · intro t ht; linarith [leWidth_ge ht]
  · intro t ht
    exact hT.fits _ _ (by norm_num) (by linarith [leWidth_ge ht])
  · intro t ht
    exact hT.gap _ _ (by norm_num) (by norm_num) (by linarith [leWidth_ge ht])
  · rw [h3]; norm_num
  · rw [h4]; norm_num

theorem wing_sized {a : Wing.Args} {n : ℕ} {m : TriMesh ℝ} {w0 w1 : ℝ}
    (h : WingSized (fun x y => (0.2 ≤ x ∧ x ≤ 1.5 ∧ 0 ≤ y) ∧ y ≤ 0.4) a (fun _ _ => -0.02) (fun _ _ => 0.02) w0 w1 0.055 1e-12 n m)
    (e0 : w0 = 0.01) (e1 : w1 = 0.01) (eA0 : a.A0 = ⟨0.2, 0, 0⟩) (eB0 : a.B0 = ⟨0.2, 0.4, 0⟩) (eTT : a.TT = ⟨1.5, 0, 0⟩) (efl : a.flap_length = 0.2)
    (efa : a.flap_angle = 0) : HIFiRE8Wing (m ++ mapVerts (mirrorV 1) m) := by
  have skin : ∀ q, OnWing (fun x y => (0.2 ≤ x ∧ x ≤ 1.5 ∧ 0 ≤ y) ∧ y ≤ 0.4) a (fun _ _ => -0.02) (fun _ _ => 0.02) q →
      0 ≤ q.x ∧ q.x ≤ 1.5 ∧ 0 ≤ q.y ∧ q.y ≤ 0.4 ∧ -0.02 ≤ q.z ∧ q.z ≤ 0.02 := by
    rintro q (⟨⟨⟨k1, k2, k3⟩, k4⟩, hz⟩ | rfl | rfl)
    · refine ⟨by linarith, k2, k3, k4, ?_⟩
      rcases hz with hz | hz <;> rw [hz] <;> norm_num
    · simp only [flapEnd, efl, efa, eA0, Real.cos_zero, Real.sin_zero]; norm_num
    · simp only [flapEnd, efl, efa, eB0, Real.cos_zero, Real.sin_zero]; norm_num
  have pair : ∀ v : V, IsVertex v m → ∀ s : ℝ, s = 1 ∨ s = -1 → IsVertex ⟨v.x, s * v.y, v.z⟩ (m ++ mapVerts (mirrorV 1) m) := by
    rintro v hv s (rfl | rfl)
    · rw [one_mul]; exact right_of hv
    · rw [neg_one_mul]; exact left_of hv
  constructor
  · refine both_sides (Q := fun v => -0.055 ≤ v.x ∧ v.x ≤ 1.555 ∧ |v.y| ≤ 0.455 ∧ |v.z| ≤ 0.02 + 1e-12) (fun v hv => ?_) (fun v hv => by simpa using hv)
    obtain ⟨b1, b2, b3, b4, b5, b6⟩ := (h.within v hv).box skin
    refine ⟨by linarith, by linarith, abs_le.2 ⟨by linarith, by linarith⟩, abs_le.2 ⟨by linarith, by linarith⟩⟩
  · have := h.front
    rw [eTT, e1] at this
    convert right_of this using 2 <;> norm_num
  · intro s hs
    have := pair _ h.side s hs
    rw [eB0, e0] at this
    convert this using 2 <;> norm_num
  · intro s hs
    have := pair _ (h.flap a.B0 (by simp)) s hs
    simp only [flapEnd, efl, efa, eB0, Real.cos_zero, Real.sin_zero] at this
    convert this using 2 <;> norm_num
  · have := h.skins a.A0 (by simp)
    rw [eA0] at this
    exact ⟨right_of this.2, right_of this.1⟩

/-! ## The nose -/

theorem noseH_le (hp : HIFiRE8Ok p) {x y : ℝ} (h0 : p.L ≤ x) (h1 : x ≤ p.L + 0.5) : 0 ≤ noseH p x y ∧ noseH p x y ≤ p.R_nose := by
  have hn := hp.nose
  unfold noseH L_n t_n
  have hs := Real.sqrt_nonneg (p.R_nose ^ 2 - y ^ 2)
  have hs' : Real.sqrt (p.R_nose ^ 2 - y ^ 2) ≤ p.R_nose := by
    rw [Real.sqrt_le_left (by linarith)]; nlinarith [sq_nonneg y]
  set q := Real.sqrt (p.R_nose ^ 2 - y ^ 2)
  have e : (1 / 0.5 : ℝ) = 2 := by norm_num
  rw [e]
  have c0 : 0 ≤ 1 - 2 * (x - p.L) := by linarith
  have c1 : 0 ≤ 1 - (1 - 2 * (x - p.L)) := by linarith
  have m1 := mul_nonneg c0 hs
  have m2 := mul_le_mul_of_nonneg_left hs' c0
  have m3 := mul_le_mul_of_nonneg_left (show (0.005 : ℝ) ≤ p.R_nose by linarith) c1
  constructor <;> linarith

theorem noseH_rear (hp : HIFiRE8Ok p) : noseH p p.L 0 = p.R_nose := by
  have hn := hp.nose
  unfold noseH
  rw [sub_self, mul_zero, sub_zero, zero_pow two_ne_zero, sub_zero, Real.sqrt_sq (by linarith)]
  ring

theorem noseH_side : noseH p p.L p.R_nose = 0 := by
  unfold noseH
  rw [sub_self, mul_zero, sub_zero, sub_self, Real.sqrt_zero]
  ring

theorem noseH_tip : noseH p (p.L + 0.5) 0 = 0.005 := by
  unfold noseH L_n t_n
  norm_num

theorem nose_planform (hp : HIFiRE8Ok p) : ∃ a L w, noseArgs p (sl p) = .ok a ∧ Wing.init (rounded bisect01) a = .ok w ∧
    FlatWing (fun x y => (p.L ≤ x ∧ x ≤ p.L + 0.5 ∧ 0 ≤ y) ∧ y ≤ p.R_nose) a L (fun x y => -1 * noseH p x y) (fun x y => 1 * noseH p x y) 0 ∧
    w.t_B1 ∈ Set.Icc (0 : ℝ) 1 ∧ a.t_B2 = none ∧ a.A0 = ⟨p.L, 0, 0⟩ ∧ a.A1.z = 0 ∧ a.B0 = ⟨p.L, p.R_nose, 0⟩ ∧ a.TT = ⟨p.L + 0.5, 0, 0⟩ ∧
    a.flap_length = 0 ∧ ∀ t ∈ Set.Icc (0 : ℝ) 1, (L t).z = 0 := by
  obtain ⟨a, L, h1, h2, h3, h4, h5, w, h6, h7, h8, -⟩ := nose_flat hp
  have e := h1
  unfold noseArgs at e
  obtain ⟨q, -, e⟩ := bind_ok.1 e
  obtain ⟨P, hP, e⟩ := bind_ok.1 e
  obtain rfl := pure_ok.1 e
  refine ⟨_, L, w, h1, h6, h2, ⟨h7, h8.le⟩, h4, rfl, rfl, by simp only [radius_nose hp.length], ?_, rfl, ?_⟩
  · simp only [L_n]
  · have hn := hp.nose
    have hd : ∀ e ∈ noseEdge p, e.1 ≠ e.2 := by
      intro e he
      simp only [noseEdge, List.mem_cons, List.not_mem_nil, or_false] at he
      rcases he with rfl | rfl | rfl <;> intro hc
      · have := congrArg Vec.x hc; simp only at this; linarith
      · have := congrArg Vec.x hc; simp only at this; linarith
      · have := congrArg Vec.y hc; simp only at this; linarith
    obtain ⟨P', k1, k2, -, -, k5, -⟩ := lines_edge (noseEdge p) (by simp [noseEdge]) hd (by
      intro i hi
      simp only [noseEdge, List.length_cons, List.length_nil] at hi
      obtain rfl | rfl : i = 0 ∨ i = 1 := by omega
      · rfl
      · rfl)
    have hPP : P = P' := by
      have e1 : p.R_nose - (p.L + 0.5 * L_n - p.L) * Real.tan (Real.arctan ((p.R_nose - 0.5 * w_n) / L_n)) = p.R_nose - 0.5 * (p.R_nose - 0.075) := by
        rw [Real.tan_arctan]; unfold L_n w_n; norm_num; ring
      have hA : noseArgs p (sl p) = .ok (noseOf p P') := by
        unfold noseArgs
        simp only [radius_nose hp.length]
        rw [pdiv_ok _ _ (by unfold L_n; norm_num), ok_bind]
        simp only [noseEdge, List.map_cons, List.map_nil] at k1
        have e2 : (0.5 * w_n : ℝ) = 0.075 := by unfold w_n; norm_num
        rw [e1, e2]
        show (do let line ← Polyline [Line ⟨p.L, p.R_nose, 0⟩ ⟨p.L + 0.5 * 0.5, p.R_nose - 0.5 * (p.R_nose - 0.075), 0⟩, Line ⟨p.L + 0.5 * 0.5, p.R_nose - 0.5 * (p.R_nose - 0.075), 0⟩ ⟨p.L + 0.5, 0.075, 0⟩, Line ⟨p.L + 0.5, 0.075, 0⟩ ⟨p.L + 0.5, 0, 0⟩]; _) = _
        rw [k1, ok_bind]
        rfl
      rw [h1] at hA
      exact congrArg Wing.Args.line (Except.ok.inj hA)
    subst hPP
    intro t ht
    obtain ⟨e, he, u, hu, hq⟩ := k5 t ht
    have : L t = fnOf P t := Except.ok.inj ((h2.line t).symm.trans (k2 t))
    rw [this, hq]
    simp only [noseEdge, List.mem_cons, List.not_mem_nil, or_false] at he
    rcases he with rfl | rfl | rfl <;> simp [lineAt]

theorem nose_sized (hp : HIFiRE8Ok p) {a : Wing.Args} {n : ℕ} {m : TriMesh ℝ}
    (h : FlatSized (fun x y => (p.L ≤ x ∧ x ≤ p.L + 0.5 ∧ 0 ≤ y) ∧ y ≤ p.R_nose) a (fun x y => -1 * noseH p x y) (fun x y => 1 * noseH p x y) n m)
    (eA0 : a.A0 = ⟨p.L, 0, 0⟩) (eB0 : a.B0 = ⟨p.L, p.R_nose, 0⟩) (eTT : a.TT = ⟨p.L + 0.5, 0, 0⟩) (efl : a.flap_length = 0) :
    HIFiRE8Nose p (m ++ mapVerts (mirrorV 1) m) := by
  have hn : 0 < p.R_nose := by linarith [hp.nose]
  have skin : ∀ q, OnWing (fun x y => (p.L ≤ x ∧ x ≤ p.L + 0.5 ∧ 0 ≤ y) ∧ y ≤ p.R_nose) a (fun x y => -1 * noseH p x y) (fun x y => 1 * noseH p x y) q →
      p.L ≤ q.x ∧ q.x ≤ p.L + 0.5 ∧ 0 ≤ q.y ∧ q.y ≤ p.R_nose ∧ -p.R_nose ≤ q.z ∧ q.z ≤ p.R_nose := by
    rintro q (⟨⟨⟨k1, k2, k3⟩, k4⟩, hz⟩ | rfl | rfl)
    · have := noseH_le hp (y := q.y) k1 k2
      refine ⟨k1, k2, k3, k4, ?_⟩
      rcases hz with hz | hz <;> rw [hz] <;> constructor <;> linarith
    · simp only [flapEnd, efl, eA0, zero_mul]
      exact ⟨by linarith, by linarith, le_rfl, hn.le, by linarith, by linarith⟩
    · simp only [flapEnd, efl, eB0, zero_mul]
      exact ⟨by linarith, by linarith, hn.le, le_rfl, by linarith, by linarith⟩
  have box : ∀ v, IsVertex v (m ++ mapVerts (mirrorV 1) m) → (p.L ≤ v.x ∧ v.x ≤ p.L + 0.5) ∧ |v.y| ≤ p.R_nose ∧ |v.z| ≤ p.R_nose := by
    refine both_sides (Q := fun v => (p.L ≤ v.x ∧ v.x ≤ p.L + 0.5) ∧ |v.y| ≤ p.R_nose ∧ |v.z| ≤ p.R_nose) (fun v hv => ?_) (fun v hv => by simpa using hv)
    obtain ⟨b1, b2, b3, b4, b5, b6⟩ := (h.within v hv).box skin
    exact ⟨⟨by linarith, by linarith⟩, abs_le.2 ⟨by linarith, by linarith⟩, abs_le.2 ⟨by linarith, by linarith⟩⟩
  have rear := h.skins a.A0 (by simp)
  rw [eA0] at rear
  simp only [noseH_rear hp, one_mul, neg_mul] at rear
  have side := (h.skins a.B0 (by simp)).1
  rw [eB0] at side
  simp only [noseH_side, mul_zero] at side
  have tip := h.skins a.TT (by simp)
  rw [eTT] at tip
  simp only [noseH_tip, one_mul, neg_mul] at tip
  exact ⟨⟨fun v hv => (box v hv).1, ⟨_, right_of rear.1, rfl⟩, ⟨_, right_of tip.1, rfl⟩⟩,
    ⟨fun v hv => abs_le.1 (box v hv).2.1, ⟨_, left_of side, rfl⟩, ⟨_, right_of side, rfl⟩⟩,
    ⟨fun v hv => abs_le.1 (box v hv).2.2, ⟨_, right_of rear.1, rfl⟩, ⟨_, right_of rear.2, rfl⟩⟩, right_of tip.2, right_of tip.1⟩

/-! ## The fins -/

/-- What lies on one side of a line with slope `k` for the corners lies there for the fin. -/
theorem within_slope {a : Fin.Args} {W M k c : ℝ} {u : V} (h : WithinFin a W M u) (hk : 0 ≤ k) (hW : 0 ≤ W) (hc : ∀ q ∈ finCorners a, q.y + k * q.x ≤ c) :
    u.y + k * u.x ≤ c + W * (1 + k) := by
  have hr : 0 < Real.sqrt (1 + k ^ 2) := Real.sqrt_pos.2 (by positivity)
  have hr1 : Real.sqrt (1 + k ^ 2) ≤ 1 + k := by
    rw [Real.sqrt_le_left (by linarith)]; nlinarith
  have hsq : Real.sqrt (1 + k ^ 2) ^ 2 = 1 + k ^ 2 := Real.sq_sqrt (by positivity)
  set r := Real.sqrt (1 + k ^ 2)
  have := h.2 (k / r) (1 / r) (c / r) (by rw [div_pow, div_pow, hsq, ← add_div]; rw [div_eq_one_iff_eq (by positivity)]; ring) (fun q hq => by
    have := div_le_div_of_nonneg_right (hc q hq) hr.le
    calc k / r * q.x + 1 / r * q.y = (q.y + k * q.x) / r := by ring
      _ ≤ _ := this)
  have e : k / r * u.x + 1 / r * u.y = (u.y + k * u.x) / r := by ring
  rw [e, div_le_iff₀ hr, add_mul, div_mul_cancel₀ _ hr.ne'] at this
  linarith [mul_le_mul_of_nonneg_left hr1 hW]

/-- The vertices of the fins. -/
theorem fin_sized {ptan : ℝ → ℝ} (hT : FloatTan ptan) (k angle : ℝ) (hk : k = 1 ∨ k = 0.5) (n : ℕ) (hn : 1 ≤ n)
    (name : Option String) (H : Heap) (id : ℕ) (hid : H id = Fin.comp (rounded bisect01) ptan (finArgs p (sl p) k angle) n name) :
    ∃ g c, generatePatches H id = (.ok (), g) ∧ pipeline 0 (g id) = (.ok (), c) ∧
      ∃ M c', c.mesh = (.ok M, c') ∧
        (∀ v, IsVertex v M.tris → ∃ u, v = radially angle u ∧ |u.z| ≤ 0.004 + 1e-12 ∧ WithinFin (finArgs p (sl p) k angle) 0.055 (0.004 + 1e-12) u) ∧
        StandsOver M.tris (radially angle) 0.008 [(0, bodyRadius p 0), (k * 0.08, k * (bodyRadius p 0.08 + 0.16)),
          (k * 0.28, k * (bodyRadius p 0.28 + 0.16)), (0.4, bodyRadius p 0.4)] ∧
        IsVertex (radially angle ⟨k * 0.08, k * (bodyRadius p 0.08 + 0.16) + 0.01, 0⟩) M.tris := by
  obtain ⟨hu, hb⟩ := fin_uniform (p := p) hT (sl p) k angle hk
  have e : (finArgs p (sl p) k angle).fin_thickness = 0.008 := by simp only [finArgs, fin_thickness, fin_length]; norm_num
  have hf : FlatOutline (finArgs p (sl p) k angle) 0.055 := by
    refine ⟨rfl, by simp [finArgs, p1], by simp [finArgs, p2], rfl, ?_⟩
    intro t ht w hw
    have : leWidth t = .ok w := hw
    rw [leWidth_eq] at this
    obtain rfl := Except.ok.inj this
    exact leWidth_le ht
  obtain ⟨h', M, c', g1, g2, g3, g4, -, g6, -⟩ := C139_fin (rounded bisect01) ptan _ 0.01 0.055 6e-7 _ roundedBisect_finds hu hf
    (by
      simp only [finArgs, p1, p2, p3, fin_length, Vec.mul_x]
      rcases hk with rfl | rfl <;> norm_num) n hn name H id hid
  obtain ⟨P, R, S, hopt⟩ := generatePatches_opts H id (by rw [hid]; simp [Comp.children, Fin.comp])
  rw [g1, hid] at hopt
  simp only at hopt
  have mv : ∀ u, finMove (finArgs p (sl p) k angle) ⟨0, 0, 0⟩ u = radially angle u := by
    intro u
    rw [finMove_plain _ _ _ rfl]
    simp only [rotAbout, radially, finArgs]
    ext <;> simp
  have hh : finHalfHeight (finArgs p (sl p) k angle) = 0.004 := by
    unfold finHalfHeight
    rw [if_neg (by simp [finArgs]), e]; norm_num
  have gap := hT.gap ((finArgs p (sl p) k angle).fin_thickness / 2) 0.01 (by rw [e]; norm_num) (by rw [e]; norm_num) (by norm_num)
  have c1 : (finArgs p (sl p) k angle).p1 = ⟨k * 0.08, k * (bodyRadius p 0.08 + 0.16), 0⟩ := by
    simp only [finArgs, p1, radius_eq, bodyRadius, fin_length, fin_height]
    ext <;> simp <;> ring
  have c2 : (finArgs p (sl p) k angle).p2 = ⟨k * 0.28, k * (bodyRadius p 0.28 + 0.16), 0⟩ := by
    simp only [finArgs, p2, radius_eq, bodyRadius, fin_length, fin_height]
    ext <;> simp <;> ring
  have c0 : (finArgs p (sl p) k angle).p0 = ⟨0, bodyRadius p 0, 0⟩ := by
    simp only [finArgs, p0, radius_eq, bodyRadius]
  have c3 : (finArgs p (sl p) k angle).p3 = ⟨0.4, bodyRadius p 0.4, 0⟩ := by
    simp only [finArgs, p3, radius_eq, bodyRadius, fin_length]
  refine ⟨h', h' id, g1, pipeline_plain _ (by rw [hopt]; rfl) (by rw [hopt]; rfl) (by rw [hopt]; rfl) (by rw [hopt]; rfl), M, c', g2, ?_, ?_, ?_⟩
  · intro v hv
    obtain ⟨u, rfl, hu⟩ := g3 v hv
    rw [hh] at hu
    exact ⟨u, mv u, by linarith [hu.1], by linarith [hu.1], hu.2⟩
  · have key : ∀ q : V, q ∈ [(finArgs p (sl p) k angle).p0, (finArgs p (sl p) k angle).p1, (finArgs p (sl p) k angle).p2, (finArgs p (sl p) k angle).p3] →
        ∀ x y, q = ⟨x, y, 0⟩ → IsVertex (radially angle ⟨x, y, 0.008 / 2⟩) M.tris ∧ IsVertex (radially angle ⟨x, y, -(0.008 / 2)⟩) M.tris := by
      rintro q hq x y rfl
      have := g4 _ hq
      rw [mv, mv, e] at this
      have e1 : (⟨x, y, 0⟩ : V) + ⟨0, 0, 0.008 / 2⟩ = ⟨x, y, 0.008 / 2⟩ := by ext <;> simp
      have e2 : (⟨x, y, 0⟩ : V) - ⟨0, 0, 0.008 / 2⟩ = ⟨x, y, -(0.008 / 2)⟩ := by ext <;> simp
      rw [e1, e2] at this
      exact this
    intro q hq
    simp only [List.mem_cons, List.not_mem_nil, or_false] at hq
    rcases hq with rfl | rfl | rfl | rfl
    · exact key _ (by simp) _ _ c0
    · exact key _ (by simp) _ _ c1
    · exact key _ (by simp) _ _ c2
    · exact key _ (by simp) _ _ c3
  · have := g6 0.01 (by
      show leWidth 0 = .ok 0.01
      rw [leWidth_eq]; norm_num)
    rw [mv, c1] at this
    convert this using 2
    ext <;> simp

theorem finCorners_eq (k angle : ℝ) : finCorners (finArgs p (sl p) k angle) = [⟨0, bodyRadius p 0, 0⟩, ⟨k * 0.08, k * (bodyRadius p 0.08 + 0.16), 0⟩,
    ⟨k * 0.28, k * (bodyRadius p 0.28 + 0.16), 0⟩, ⟨0.4, bodyRadius p 0.4, 0⟩] := by
  have c1 : (finArgs p (sl p) k angle).p1 = ⟨k * 0.08, k * (bodyRadius p 0.08 + 0.16), 0⟩ := by
    simp only [finArgs, p1, radius_eq, bodyRadius, fin_length, fin_height]
    ext <;> simp <;> ring
  have c2 : (finArgs p (sl p) k angle).p2 = ⟨k * 0.28, k * (bodyRadius p 0.28 + 0.16), 0⟩ := by
    simp only [finArgs, p2, radius_eq, bodyRadius, fin_length, fin_height]
    ext <;> simp <;> ring
  have c0 : (finArgs p (sl p) k angle).p0 = ⟨0, bodyRadius p 0, 0⟩ := by
    simp only [finArgs, p0, radius_eq, bodyRadius]
  have c3 : (finArgs p (sl p) k angle).p3 = ⟨0.4, bodyRadius p 0.4, 0⟩ := by
    simp only [finArgs, p3, radius_eq, bodyRadius, fin_length]
  unfold finCorners
  rw [if_neg (by simp [finArgs]), c0, c1, c2, c3, List.append_nil]

theorem axisDist_radially (φ : ℝ) (u : V) : axisDist (radially φ u) = Real.sqrt (u.y ^ 2 + u.z ^ 2) := by
  unfold axisDist radially
  congr 1
  linear_combination (u.y ^ 2 + u.z ^ 2) * (Real.sin_sq_add_cos_sq φ)

/-- The upper fins. -/
theorem tall_fin (hp : HIFiRE8Ok p) (hb : p.R_nose ≤ p.R_base) (hL : 0.4 ≤ p.L) {angle : ℝ} {m : TriMesh ℝ}
    (h1 : ∀ v, IsVertex v m → ∃ u, v = radially angle u ∧ |u.z| ≤ 0.004 + 1e-12 ∧ WithinFin (finArgs p (sl p) 1 angle) 0.055 (0.004 + 1e-12) u)
    (h2 : StandsOver m (radially angle) 0.008 [(0, bodyRadius p 0), (1 * 0.08, 1 * (bodyRadius p 0.08 + 0.16)),
          (1 * 0.28, 1 * (bodyRadius p 0.28 + 0.16)), (0.4, bodyRadius p 0.4)])
    (h3 : IsVertex (radially angle ⟨1 * 0.08, 1 * (bodyRadius p 0.08 + 0.16) + 0.01, 0⟩) m) : HIFiRE8Fin p angle m := by
  have hk0 : 0 ≤ (p.R_base - p.R_nose) / p.L := div_nonneg (by linarith) hp.length.le
  have hkL := slope_mul hp
  have hR := hp.nose
  set k := (p.R_base - p.R_nose) / p.L with hk
  simp only [one_mul] at h2 h3
  constructor
  · intro v hv
    obtain ⟨u, rfl, hz, hu⟩ := h1 v hv
    have corner : ∀ q ∈ finCorners (finArgs p (sl p) 1 angle), 0 ≤ q.x ∧ q.x ≤ 0.4 ∧ bodyRadius p 0.4 ≤ q.y ∧ q.y + k * q.x ≤ p.R_base + 0.16 := by
      rw [finCorners_eq]
      intro q hq
      simp only [List.mem_cons, List.not_mem_nil, or_false] at hq
      rcases hq with rfl | rfl | rfl | rfl <;> simp only [bodyRadius, ← hk] <;> refine ⟨by norm_num, by norm_num, by linarith, by linarith⟩
    have b1 := hu.2 (-1) 0 0 (by norm_num) (fun q hq => by linarith [(corner q hq).1])
    have b2 := hu.2 1 0 0.4 (by norm_num) (fun q hq => by linarith [(corner q hq).2.1])
    have b3 := hu.2 0 (-1) (-bodyRadius p 0.4) (by norm_num) (fun q hq => by linarith [(corner q hq).2.2.1])
    have b4 := within_slope hu hk0 (by norm_num) (fun q hq => (corner q hq).2.2.2)
    refine ⟨u, rfl, by linarith, by linarith, by linarith, ?_, hz⟩
    show u.y ≤ p.R_base - u.x * k + 0.16 + 0.055 * (1 + k)
    linarith
  · intro q hq
    simp only [List.mem_cons, List.not_mem_nil, or_false] at hq
    rcases hq with rfl | rfl
    · exact h2 _ (by simp)
    · exact h2 _ (by simp)
  · intro q hq
    simp only [List.mem_cons, List.not_mem_nil, or_false] at hq
    rcases hq with rfl | rfl
    · exact h2 _ (by simp)
    · exact h2 _ (by simp)
  · refine ⟨_, h3, ?_⟩
    rw [axisDist_radially]
    refine le_trans ?_ (Real.le_sqrt_of_sq_le (x := bodyRadius p 0.08 + 0.16 + 0.01) (by simp))
    show bodyRadius p 0.08 + 0.16 ≤ _
    linarith

/-- The lower fin stands out of the fuselage by its rounded edge only. -/
theorem low_fin (hp : HIFiRE8Ok p) (hb : p.R_nose ≤ p.R_base) (hL : 0.4 ≤ p.L) (hB : 0.16 ≤ p.R_base) (hs : p.R_base - p.R_nose ≤ p.L / 4) {angle : ℝ}
    {m : TriMesh ℝ}
    (h1 : ∀ v, IsVertex v m → ∃ u, v = radially angle u ∧ |u.z| ≤ 0.004 + 1e-12 ∧ WithinFin (finArgs p (sl p) 0.5 angle) 0.055 (0.004 + 1e-12) u) :
    ¬ StandsOut p 0.08 m := by
  have hl := hp.length
  have hk0 : 0 ≤ (p.R_base - p.R_nose) / p.L := div_nonneg (by linarith) hp.length.le
  have hk1 : (p.R_base - p.R_nose) / p.L ≤ 1 / 4 := by rw [div_le_iff₀ hl]; linarith
  have hkL := slope_mul hp
  have hR := hp.nose
  set k := (p.R_base - p.R_nose) / p.L with hk
  have hk4 : 0.4 * k ≤ p.R_base - p.R_nose := by rw [← hkL]; exact mul_le_mul_of_nonneg_right hL hk0
  rintro ⟨v, hv, hout⟩
  obtain ⟨u, rfl, hz, hu⟩ := h1 v hv
  have corner : ∀ q ∈ finCorners (finArgs p (sl p) 0.5 angle), q.x ≤ 0.4 ∧ 0 ≤ q.y ∧ q.y + k * q.x ≤ p.R_base := by
    rw [finCorners_eq]
    intro q hq
    simp only [List.mem_cons, List.not_mem_nil, or_false] at hq
    rcases hq with rfl | rfl | rfl | rfl <;> simp only [bodyRadius, ← hk] <;> refine ⟨by norm_num, by linarith, by linarith⟩
  have b2 := hu.2 1 0 0.4 (by norm_num) (fun q hq => by linarith [(corner q hq).1])
  have b3 := hu.2 0 (-1) 0 (by norm_num) (fun q hq => by linarith [(corner q hq).2.1])
  have b4 := within_slope hu hk0 (by norm_num) (fun q hq => (corner q hq).2.2)
  rw [axisDist_radially] at hout
  have d : Real.sqrt (u.y ^ 2 + u.z ^ 2) ≤ |u.y| + |u.z| := by
    rw [Real.sqrt_le_left (by positivity), ← sq_abs u.y, ← sq_abs u.z]
    nlinarith [mul_nonneg (abs_nonneg u.y) (abs_nonneg u.z)]
  have ex : (radially angle u).x = u.x := rfl
  rw [ex] at hout
  unfold bodyRadius at hout
  rw [← hk] at hout
  have hx : u.x * k ≤ 0.455 * k := mul_le_mul_of_nonneg_right (by linarith) hk0
  have hy : |u.y| ≤ p.R_base - u.x * k + 0.055 * (1 + k) := by
    rw [abs_le]; constructor <;> linarith
  have : (1e-12 : ℝ) ≤ 0.001 := by norm_num
  linarith

end HIFiRE8

/-- What is known of the sizes of the components of a generated HIFiRE 8. -/
structure HIFiRE8.Sizes (p : HIFiRE8.Params) (ids : ℕ → ℕ) (N : ℕ) (st0 st' : VState) : Prop where
  fuselage : ∃ M c', (st'.heap (ids 0)).mesh = (.ok M, c') ∧ HIFiRE8Fuselage p M.tris ∧ ∀ n : ℕ, (st0.heap (ids 0)).stl_resolution = .int n → N ≤ n →
    Spans (·.y) (-p.R_base) p.R_base M.tris ∧ Spans (·.z) (-p.R_base) p.R_base M.tris
  wing : ∃ M c', (st'.heap (ids 1)).mesh = (.ok M, c') ∧ HIFiRE8Wing M.tris
  nose : ∃ M c', (st'.heap (ids 2)).mesh = (.ok M, c') ∧ HIFiRE8Nose p M.tris
  fin1 : ∃ M c', (st'.heap (ids 3)).mesh = (.ok M, c') ∧ HIFiRE8Fin p (Real.pi / 4) M.tris
  fin2 : ∃ M c', (st'.heap (ids 4)).mesh = (.ok M, c') ∧ HIFiRE8Fin p (3 * Real.pi / 4) M.tris
  fin3 : ∃ M c', (st'.heap (ids 5)).mesh = (.ok M, c') ∧ OnFuselage p (-(Real.pi / 2)) M.tris ∧
    (0.16 ≤ p.R_base → p.R_base - p.R_nose ≤ p.L / 4 → ¬ StandsOut p 0.08 M.tris)

open HIFiRE8 in
theorem hifire8_sizes (ptan : ℝ → ℝ) (hT : FloatTan ptan) (h : Heap) (ids : ℕ → ℕ) (hi : Function.Injective ids) (kwargs : Dict String ℝ)
    (p : HIFiRE8.Params) (ha : HIFiRE8Args kwargs p) (hp : HIFiRE8Ok p) (hb : p.R_nose ≤ p.R_base) (hL : 0.4 ≤ p.L) :
    ∃ st N, HIFiRE8.instanceOf bisect01 ptan h ids kwargs = .ok st ∧
      st.veh.named = ["fuselage", "wing", "nose", "fin1", "fin2", "fin3"].zip ((List.range 6).map ids) ∧
      ∀ st0 lib depth, Rescaled st st0 → ∃ st', generate lib depth st0 = (.ok (), st') ∧ HIFiRE8.Sizes p ids N st0 st' := by
  obtain ⟨P, q1, -⟩ := fuse_line hp
  obtain ⟨N, hfus⟩ := fuselage_sized hp hb q1
  obtain ⟨a1, L1, e1, s1, f1', t1, c1, l1, l1', eA0, eB0, eTT, efl, efa⟩ := wing_planform hT
  obtain ⟨w1, i1, m1⟩ := wing_break a1 t1 L1 s1.line l1 l1'
  obtain ⟨a2, L2, w2, e2, i2, s2, m2, t2, nA0, nA1, nB0, nTT, nfl, nz⟩ := nose_planform hp
  obtain ⟨st, cs, en, b1, b2, ⟨x0, f0⟩, ⟨x1, f1⟩, ⟨x2, f2⟩, ⟨x3, f3⟩, ⟨x4, f4⟩, ⟨x5, f5⟩, f6, f7⟩ :=
    hifire8_instance ptan h ids hi kwargs p ha hp.length P a1 a2 w1 w2 q1 e1 e2 i1 i2
  refine ⟨st, N, b1, by rw [b2], fun st0 lib depth hr => ?_⟩
  obtain ⟨n0, q0, r0⟩ : ∃ n : ℕ, 1 ≤ n ∧ st0.heap (ids 0) = { HIFiRE8.fuselageComp ids with stl_resolution := .int n, name := x0 } := by
    rcases hr.2 (ids 0) with h | ⟨m, hm, h⟩
    · exact ⟨8, by norm_num, by rw [h, f0]⟩
    · exact ⟨m, hm, by rw [h, f0]⟩
  obtain ⟨n1, q1', r1⟩ := hr.wing (by norm_num) f1
  obtain ⟨n2, q2, r2⟩ := hr.wing (by norm_num) f2
  have hfin : ∀ k a nm, st.heap k = Fin.comp (rounded bisect01) ptan a 3 nm → ∃ n : ℕ, 1 ≤ n ∧
      st0.heap k = Fin.comp (rounded bisect01) ptan a n nm := by
    intro k a nm hk
    rcases hr.2 k with h | ⟨m, hm, h⟩
    · exact ⟨3, by norm_num, h.trans hk⟩
    · exact ⟨m, hm, by rw [h, hk]; rfl⟩
  obtain ⟨n3, q3, r3⟩ := hfin _ _ _ f3
  obtain ⟨n4, q4, r4⟩ := hfin _ _ _ f4
  obtain ⟨n5, q5, r5⟩ := hfin _ _ _ f5
  have hrev : ∀ k L, st.heap k = RevolvedComponent L → NewRevolved (st0.heap k) L := by
    intro k L hk
    rcases hr.2 k with h | ⟨m, hm, h⟩
    · rw [h, hk]; exact ⟨rfl, rfl⟩
    · rw [h, hk]; exact ⟨rfl, rfl⟩
  have hv : st0.veh = st.veh := hr.1
  have hcs : st0.veh.components = [ids 0, ids 1, ids 2, ids 3, ids 4, ids 5] := by rw [hv, b2]; rfl
  obtain ⟨g0, d0, g01, g02, M0, c0', g03, g04, g05⟩ := hfus st0.heap ids hi n0 q0 x0 r0 (hrev _ _ f6) (hrev _ _ f7)
  obtain ⟨g1, d1, g11, g12, M1, c1', F1, g13, g14, g15⟩ := reflected_sized i1 s1 f1' m1 n1 q1' st0.heap (ids 1) _ r1
  obtain ⟨k', K, kc, k1, k2, k3⟩ := C140_flat_wing (rounded bisect01) ptan _ a2 w2 L2 _ _ 0 i2 s2 (.inl t2) m2 (by rw [nA0]) nA1 nz n2 q2 none
    (fun _ => Wing.comp ptan w2 n2 none) 0 rfl
  obtain ⟨g2, d2, M2, c2', g21, g22, g23, g24⟩ := reflected_wing ptan w2 n2 q2 k' K kc k1 k2 st0.heap (ids 2) _ r2
  obtain ⟨g3, d3, g31, g32, M3, c3', g33, g34, g35, g36⟩ := fin_sized hT 1 _ (.inl rfl) n3 q3 _ st0.heap (ids 3) r3
  obtain ⟨g4, d4, g41, g42, M4, c4', g43, g44, g45, g46⟩ := fin_sized hT 1 _ (.inl rfl) n4 q4 _ st0.heap (ids 4) r4
  obtain ⟨g5, d5, g51, g52, M5, c5', g53, g54, g55, -⟩ := fin_sized hT 0.5 _ (.inr rfl) n5 q5 _ st0.heap (ids 5) r5
  have ch0 : (st0.heap (ids 0)).children = [ids 6, ids 7] := by rw [r0]; rfl
  have ch : ∀ i, 1 ≤ i → i < 6 → (st0.heap (ids i)).children = [] := by
    intro i h1 h6
    interval_cases i
    · rw [r1]; rfl
    · rw [r2]; rfl
    · rw [r3]; rfl
    · rw [r4]; rfl
    · rw [r5]; rfl
  have hmem : ∀ k ∈ st0.veh.components, k = ids 0 ∨ (st0.heap k).children = [] ∧ ∃ i < 6, k = ids i := by
    intro k hk
    rw [hcs] at hk
    simp only [List.mem_cons, List.not_mem_nil, or_false] at hk
    rcases hk with rfl | rfl | rfl | rfl | rfl | rfl
    · exact .inl rfl
    · exact .inr ⟨ch 1 (by norm_num) (by norm_num), 1, by norm_num, rfl⟩
    · exact .inr ⟨ch 2 (by norm_num) (by norm_num), 2, by norm_num, rfl⟩
    · exact .inr ⟨ch 3 (by norm_num) (by norm_num), 3, by norm_num, rfl⟩
    · exact .inr ⟨ch 4 (by norm_num) (by norm_num), 4, by norm_num, rfl⟩
    · exact .inr ⟨ch 5 (by norm_num) (by norm_num), 5, by norm_num, rfl⟩
  obtain ⟨st', h1, h2, h3⟩ := generate_parts lib depth st0 (by rw [hv, b2]) (by rw [hv, b2]) (by rw [hv, b2])
    (by
      refine ⟨by rw [hcs]; simp [hi.eq_iff], ?_, ?_⟩
      · intro k hk k' hk'
        rcases hmem k' hk' with rfl | ⟨hc, -⟩
        · rw [ch0]
          rcases hmem k hk with rfl | ⟨-, i, hi6, rfl⟩
          · simp [hi.eq_iff]
          · simp only [List.mem_cons, hi.eq_iff, List.not_mem_nil, or_false]; omega
        · rw [hc]; simp
      · intro k hk k' hk' hne
        rcases hmem k hk with rfl | ⟨hc, -⟩
        · rcases hmem k' hk' with rfl | ⟨hc', -⟩
          · exact absurd rfl hne
          · rw [hc']; simp
        · rw [hc]; simp)
    (fun k c => (k = ids 0 → c = d0) ∧ (k = ids 1 → c = d1) ∧ (k = ids 2 → c = d2) ∧ (k = ids 3 → c = d3) ∧ (k = ids 4 → c = d4) ∧
      (k = ids 5 → c = d5))
    (by
      intro k hk
      rw [hcs] at hk
      simp only [List.mem_cons, List.not_mem_nil, or_false] at hk
      rcases hk with rfl | rfl | rfl | rfl | rfl | rfl
      · exact ⟨g0, d0, g01, g02, by simp [hi.eq_iff]⟩
      · exact ⟨g1, d1, g11, g12, by simp [hi.eq_iff]⟩
      · exact ⟨g2, d2, g21, g22, by simp [hi.eq_iff]⟩
      · exact ⟨g3, d3, g31, g32, by simp [hi.eq_iff]⟩
      · exact ⟨g4, d4, g41, g42, by simp [hi.eq_iff]⟩
      · exact ⟨g5, d5, g51, g52, by simp [hi.eq_iff]⟩)
  rw [hcs] at h3
  refine ⟨st', h1, ?_⟩
  constructor
  · rw [(h3 (ids 0) (by simp)).1 rfl]
    refine ⟨M0, c0', g03, g04, fun n hn h2n => g05 ?_⟩
    rw [r0] at hn
    have : n0 = n := by simpa using hn
    omega
  · rw [(h3 (ids 1) (by simp)).2.1 rfl]
    refine ⟨M1, c1', g13, ?_⟩
    rw [g15]
    exact wing_sized g14 (by norm_num) (by norm_num) eA0 eB0 eTT efl efa
  · rw [(h3 (ids 2) (by simp)).2.2.1 rfl]
    refine ⟨M2, c2', g23, ?_⟩
    rw [g24]
    exact nose_sized hp k3 nA0 nB0 nTT nfl
  · rw [(h3 (ids 3) (by simp)).2.2.2.1 rfl]
    refine ⟨M3, c3', g33, ?_⟩
    have e : deg2rad (90 - 45) = Real.pi / 4 := by unfold deg2rad; ring
    rw [← e]
    exact tall_fin hp hb hL g34 g35 g36
  · rw [(h3 (ids 4) (by simp)).2.2.2.2.1 rfl]
    refine ⟨M4, c4', g43, ?_⟩
    have e : deg2rad (90 - 45) + deg2rad 90 = 3 * Real.pi / 4 := by unfold deg2rad; ring
    rw [← e]
    exact tall_fin hp hb hL g44 g45 g46
  · rw [(h3 (ids 5) (by simp)).2.2.2.2.2 rfl]
    have e : deg2rad (-90) = -(Real.pi / 2) := by unfold deg2rad; ring
    rw [e] at g54 g55
    refine ⟨M5, c5', g53, fun q hq => ?_, fun hB hs => low_fin hp hb hL hB hs g54⟩
    simp only [List.mem_cons, List.not_mem_nil, or_false] at hq
    rcases hq with rfl | rfl
    · exact g55 _ (by simp)
    · exact g55 _ (by simp)

/-- C148, in part: for every sensible HIFiRE 8 whose fuselage does not widen towards the nose and is at least as long as the fins, generated at any mesh
resolution, the fuselage, the wing, the nose and the two upper fins have the dimensions given, and the third fin has its foot on the fuselage.  If the
resolution is high enough the fuselage has the base radius given.  Missing: the height of the third fin, see `C148_third_fin_violated`. -/
theorem C148_hifire8_partial (ptan : ℝ → ℝ) (hT : FloatTan ptan) (h : Heap) (ids : ℕ → ℕ) (hi : Function.Injective ids) (kwargs : Dict String ℝ)
    (p : HIFiRE8.Params) (ha : HIFiRE8Args kwargs p) (hp : HIFiRE8Ok p) (hb : p.R_nose ≤ p.R_base) (hL : 0.4 ≤ p.L) :
    ∃ st N, HIFiRE8.instanceOf bisect01 ptan h ids kwargs = .ok st ∧
      st.veh.named = [("fuselage", ids 0), ("wing", ids 1), ("nose", ids 2), ("fin1", ids 3), ("fin2", ids 4), ("fin3", ids 5)] ∧
      ∀ st0 lib depth, Rescaled st st0 → ∃ st', generate lib depth st0 = (.ok (), st') ∧
        (∃ M c', (st'.heap (ids 0)).mesh = (.ok M, c') ∧ HIFiRE8Fuselage p M.tris ∧ ∀ n : ℕ, (st0.heap (ids 0)).stl_resolution = .int n → N ≤ n →
          Spans (·.y) (-p.R_base) p.R_base M.tris ∧ Spans (·.z) (-p.R_base) p.R_base M.tris) ∧
        (∃ M c', (st'.heap (ids 1)).mesh = (.ok M, c') ∧ HIFiRE8Wing M.tris) ∧
        (∃ M c', (st'.heap (ids 2)).mesh = (.ok M, c') ∧ HIFiRE8Nose p M.tris) ∧
        (∃ M c', (st'.heap (ids 3)).mesh = (.ok M, c') ∧ HIFiRE8Fin p (Real.pi / 4) M.tris) ∧
        (∃ M c', (st'.heap (ids 4)).mesh = (.ok M, c') ∧ HIFiRE8Fin p (3 * Real.pi / 4) M.tris) ∧
        (∃ M c', (st'.heap (ids 5)).mesh = (.ok M, c') ∧ OnFuselage p (-(Real.pi / 2)) M.tris) := by
  obtain ⟨st, N, b1, b3, b4⟩ := hifire8_sizes ptan hT h ids hi kwargs p ha hp hb hL
  refine ⟨st, N, b1, by rw [b3]; rfl, fun st0 lib depth hr => ?_⟩
  obtain ⟨st', g1, g2⟩ := b4 st0 lib depth hr
  obtain ⟨M, c', m1, m2, -⟩ := g2.fin3
  exact ⟨st', g1, g2.fuselage, g2.wing, g2.nose, g2.fin1, g2.fin2, M, c', m1, m2⟩

/-- C148 is violated by the third fin, which is meant to be half as high as the others: `create_instance` halves the distance of its upper corners from the
axis of the fuselage instead of their height over the fuselage.  For every base radius of at least 0.16 and every fuselage that is not too blunt, at any mesh
resolution, it stands out of the fuselage nowhere by 0.08. -/
theorem C148_third_fin_violated (ptan : ℝ → ℝ) (hT : FloatTan ptan) (h : Heap) (ids : ℕ → ℕ) (hi : Function.Injective ids) (kwargs : Dict String ℝ)
    (p : HIFiRE8.Params) (ha : HIFiRE8Args kwargs p) (hp : HIFiRE8Ok p) (hb : p.R_nose ≤ p.R_base) (hL : 0.4 ≤ p.L) (hB : 0.16 ≤ p.R_base)
    (hs : p.R_base - p.R_nose ≤ p.L / 4) :
    ∃ st, HIFiRE8.instanceOf bisect01 ptan h ids kwargs = .ok st ∧ Dict.get st.veh.named "fin3" = .ok (ids 5) ∧
      ∀ st0 lib depth, Rescaled st st0 → ∃ st' M c', generate lib depth st0 = (.ok (), st') ∧ (st'.heap (ids 5)).mesh = (.ok M, c') ∧
        ¬ StandsOut p 0.08 M.tris := by
  obtain ⟨st, N, b1, b3, b4⟩ := hifire8_sizes ptan hT h ids hi kwargs p ha hp hb hL
  refine ⟨st, b1, by rw [b3]; rfl, fun st0 lib depth hr => ?_⟩
  obtain ⟨st', g1, g2⟩ := b4 st0 lib depth hr
  obtain ⟨M, c', m1, -, m2⟩ := g2.fin3
  exact ⟨st', M, c', g1, m1, m2 hB hs⟩

/-- The HIFiRE 8 without arguments: the nose ends at `x = 1.7`, the first fin stands out of the fuselage by 0.16, the third by less than 0.08. -/
example (h : Heap) (lib : Lib) (depth : ℕ) : ∃ st st' M2 c2 M3 c3 M5 c5, HIFiRE8.instanceOf bisect01 ieeeTan h id [] = .ok st ∧
    generate lib depth st = (.ok (), st') ∧ (st'.heap 2).mesh = (.ok M2, c2) ∧ IsVertex ⟨1.7, 0, 0.005⟩ M2.tris ∧
    (st'.heap 3).mesh = (.ok M3, c3) ∧ StandsOut hifire8Default 0.16 M3.tris ∧
    (st'.heap 5).mesh = (.ok M5, c5) ∧ ¬ StandsOut hifire8Default 0.08 M5.tris := by
  have k1 : hifire8Default.R_nose ≤ hifire8Default.R_base := by simp only [hifire8Default]; norm_num
  have k2 : 0.4 ≤ hifire8Default.L := by simp only [hifire8Default]; norm_num
  obtain ⟨st, N, b1, -, b4⟩ := hifire8_sizes ieeeTan ieeeTan_float h id Function.injective_id [] _ hifire8Default_ok.1 hifire8Default_ok.2 k1 k2
  obtain ⟨st', g1, g2⟩ := b4 st lib depth ⟨rfl, fun k => .inl rfl⟩
  obtain ⟨M2, c2, m1, m2⟩ := g2.nose
  obtain ⟨M3, c3, n1, n2⟩ := g2.fin1
  obtain ⟨M5, c5, o1, -, o2⟩ := g2.fin3
  refine ⟨st, st', M2, c2, M3, c3, M5, c5, b1, g1, m1, ?_, n1, n2.out, o1, o2 (by simp only [hifire8Default]; norm_num) (by simp only [hifire8Default]; norm_num)⟩
  have := m2.tip.1
  simp only [hifire8Default] at this
  convert this using 2
  norm_num

end HV
