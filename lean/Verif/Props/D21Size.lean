import Verif.Props.SizeRevolved
import Verif.Props.FinSizes
import Verif.Props.WingSizes

/-!
# C142: the D-21 as assembled has the dimensions given
-/

namespace HV
open Spec Veh

/-- The profile of a cylinder of length `L` and radius `R`. -/
theorem tube_profile (L R : ℝ) (hL : 0 < L) (h1 : 0 < R) (P : PathObj)
    (e : Polyline [Line ⟨0, 0, 0⟩ ⟨0, R, 0⟩, Line ⟨0, R, 0⟩ ⟨-L, R, 0⟩, Line ⟨-L, R, 0⟩ ⟨-L, 0, 0⟩] = .ok P) :
    GoodSeg P ∧ fnOf P 0 = ⟨0, 0, 0⟩ ∧ fnOf P 1 = ⟨-L, 0, 0⟩ ∧
    (∀ t ∈ Set.Icc (0 : ℝ) 1, (-L ≤ (fnOf P t).x ∧ (fnOf P t).x ≤ 0) ∧ (0 ≤ (fnOf P t).y ∧ (fnOf P t).y ≤ R) ∧ (fnOf P t).z = 0) ∧
    (fnOf P (1 / 2)).y = R := by
  set segs : List PathObj := [Line ⟨0, 0, 0⟩ ⟨0, R, 0⟩, Line ⟨0, R, 0⟩ ⟨-L, R, 0⟩, Line ⟨-L, R, 0⟩ ⟨-L, 0, 0⟩] with hs
  have hg : ∀ s ∈ segs, GoodSeg s := by
    intro s hs'
    simp only [hs, List.mem_cons, List.not_mem_nil, or_false] at hs'
    rcases hs' with rfl | rfl | rfl
    · exact goodLine _ _ (by intro h; have := congrArg Vec.y h; simp at this; linarith)
    · exact goodLine _ _ (by intro h; have := congrArg Vec.x h; simp at this; linarith)
    · exact goodLine _ _ (by intro h; have := congrArg Vec.y h; simp at this; linarith)
  have hne : segs ≠ [] := by simp [hs]
  obtain ⟨P', k1, k2, k3, k4, k5⟩ := goodPolyline segs hne hg
  rw [e] at k1
  obtain rfl := Except.ok.inj k1
  refine ⟨k2, ?_, ?_, ?_, ?_⟩
  · rw [k3]; simp only [hs, List.head_cons]; rw [fnOf_line]; simp
  · rw [k4]; simp only [hs, List.getLast_cons_cons, List.getLast_singleton]; rw [fnOf_line]; simp
  · intro t ht
    obtain ⟨i, hi, u, ⟨hu0, hu1⟩, -, -, -, e'⟩ := k5 t ht
    rw [e']
    have hi' : i < 3 := hi
    have a1 := mul_nonneg (show (0 : ℝ) ≤ R by linarith) hu0
    have a2 := mul_nonneg (show (0 : ℝ) ≤ R by linarith) (sub_nonneg.2 hu1)
    have a3 := mul_nonneg (show (0 : ℝ) ≤ L by linarith) hu0
    have a4 := mul_nonneg (show (0 : ℝ) ≤ L by linarith) (sub_nonneg.2 hu1)
    interval_cases i
    · rw [show (segs[0] : PathObj) = Line ⟨0, 0, 0⟩ ⟨0, R, 0⟩ from rfl, fnOf_line]
      refine ⟨⟨?_, ?_⟩, ⟨?_, ?_⟩, ?_⟩ <;> simp only <;> linarith
    · rw [show (segs[1] : PathObj) = Line ⟨0, R, 0⟩ ⟨-L, R, 0⟩ from rfl, fnOf_line]
      refine ⟨⟨?_, ?_⟩, ⟨?_, ?_⟩, ?_⟩ <;> simp only <;> linarith
    · rw [show (segs[2] : PathObj) = Line ⟨-L, R, 0⟩ ⟨-L, 0, 0⟩ from rfl, fnOf_line]
      refine ⟨⟨?_, ?_⟩, ⟨?_, ?_⟩, ?_⟩ <;> simp only <;> linarith
  · have hlen : ∀ a b : V, lenOf (Line a b) = vdist a b := by
      intro a b
      rw [vdist_sqrt]
      show (b - a).abs = _
      unfold Vec.abs
      congr 1
      simp
      ring
    have l1 : lenOf (Line ⟨0, 0, 0⟩ ⟨0, R, 0⟩) = R := by
      rw [hlen, vdist_sqrt]
      simp only
      rw [show (0 - 0 : ℝ) ^ 2 + (0 - R) ^ 2 + (0 - 0) ^ 2 = R ^ 2 by ring, Real.sqrt_sq (by linarith)]
    have l2 : lenOf (Line ⟨0, R, 0⟩ ⟨-L, R, 0⟩) = L := by
      rw [hlen, vdist_sqrt]
      simp only
      rw [show (0 - -L : ℝ) ^ 2 + (R - R) ^ 2 + (0 - 0) ^ 2 = L ^ 2 by ring, Real.sqrt_sq (by linarith)]
    have l3 : lenOf (Line ⟨-L, R, 0⟩ ⟨-L, 0, 0⟩) = R := by
      rw [hlen, vdist_sqrt]
      simp only
      rw [show (-L - -L : ℝ) ^ 2 + (R - 0) ^ 2 + (0 - 0) ^ 2 = R ^ 2 by ring, Real.sqrt_sq (by linarith)]
    have t1 : bp lenOf segs 1 = R / (R + (L + R)) := by simp [bp, hs, l1, l2, l3]
    have t2 : bp lenOf segs 2 = (R + L) / (R + (L + R)) := by simp [bp, hs, l1, l2, l3]
    obtain ⟨u, -, e'⟩ := polyline_within segs hne hg P e 1 (by simp [hs]) (1 / 2)
      (by rw [t1, div_lt_div_iff₀ (by linarith) (by norm_num)]; linarith)
      (by rw [t2, div_lt_div_iff₀ (by norm_num) (by linarith)]; linarith)
    rw [e', show (segs[1]'(by simp [hs]) : PathObj) = Line ⟨0, R, 0⟩ ⟨-L, R, 0⟩ from rfl, fnOf_line]
    show R * (1 - u) + R * u = R
    ring

namespace D21
variable {p : Params}

/-- The profile of the fuselage. -/
theorem fuse_profile (hp : D21Ok p) (P : PathObj) (e : fuseLine p = .ok P) : GoodSeg P ∧ fnOf P 0 = ⟨0, 0, 0⟩ ∧ fnOf P 1 = ⟨-p.L_b, 0, 0⟩ ∧
    (∀ t ∈ Set.Icc (0 : ℝ) 1, (-p.L_b ≤ (fnOf P t).x ∧ (fnOf P t).x ≤ 0) ∧ (0 ≤ (fnOf P t).y ∧ (fnOf P t).y ≤ p.R_b) ∧ (fnOf P t).z = 0) ∧
    (fnOf P (1 / 2)).y = p.R_b := by
  have e1 : b1 p = ⟨-p.L_b, p.R_b, 0⟩ := by ext <;> simp [b1, b0]
  have e2 : b2 p = ⟨-p.L_b, 0, 0⟩ := by ext <;> simp [b2, b1, b0]
  unfold fuseLine at e
  rw [e1, e2, show b0 p = ⟨0, p.R_b, 0⟩ from rfl] at e
  exact tube_profile _ _ (by linarith [hp.wing, hp.body]) (by linarith [hp.radius]) P e

/-- The profile of the nose. -/
theorem nose_profile (hp : D21Ok p) (P : PathObj) (e : noseLine p = .ok P) : GoodSeg P ∧ fnOf P 0 = ⟨0.15 * p.L_b - 0.1, 0, 0⟩ ∧
    fnOf P 1 = ⟨-0.6, 0, 0⟩ ∧ ∀ t ∈ Set.Icc (0 : ℝ) 1, (-0.6 ≤ (fnOf P t).x ∧ (fnOf P t).x ≤ 0.15 * p.L_b - 0.1) ∧
      (0 ≤ (fnOf P t).y ∧ (fnOf P t).y ≤ p.R_b) ∧ (fnOf P t).z = 0 := by
  have h1 := hp.radius
  have h2 := hp.wing
  have h3 := hp.body
  obtain ⟨P', k1, k2, k3, k4, k5, -⟩ := nose_line hp
  rw [e] at k1
  obtain rfl := Except.ok.inj k1
  have ht : top p = ⟨-0.1, p.R_b, 0⟩ := by ext <;> simp [top, shift]
  have he : (⟨-0.5, 0, 0⟩ : V) + shift = ⟨-0.6, 0, 0⟩ := by ext <;> simp [shift]; norm_num
  have hb : ∀ t, fnOf (Bezier [tip p, midCp p, top p]) t = ⟨0.15 * p.L_b * (1 - t) ^ 2 - 0.1, p.R_b * t * (0.6 + 0.4 * t), 0⟩ := by
    intro t; unfold fnOf; rw [cone_call]; rfl
  have hg : ∀ s ∈ [Bezier [tip p, midCp p, top p], Line (top p) ((⟨-0.5, 0, 0⟩ : V) + shift)], GoodSeg s := by
    intro s hs
    simp only [List.mem_cons, List.not_mem_nil, or_false] at hs
    rcases hs with rfl | rfl
    · obtain ⟨l, k1, k2, -⟩ := C16_length _ _ (cone_call p) 20 (by norm_num)
      refine ⟨⟨l, k1, lt_of_lt_of_le ?_ k2⟩, fun t => ⟨_, cone_call p t⟩⟩
      rw [vdist_sqrt]
      apply Real.sqrt_pos.2
      have : 0 < p.R_b ^ 2 := by positivity
      simp only
      nlinarith [sq_nonneg (p.L_b)]
    · refine goodLine _ _ ?_
      rw [ht, he]
      intro hc
      have := congrArg Vec.x hc
      norm_num at this
  obtain ⟨P', j1, j2, -, -, j5⟩ := goodPolyline _ (by simp) hg
  unfold noseLine at e
  rw [e] at j1
  obtain rfl := Except.ok.inj j1
  refine ⟨j2, k3, k4, fun t ht' => ?_⟩
  obtain ⟨i, hi, u, ⟨hu0, hu1⟩, -, -, -, e'⟩ := j5 t ht'
  rw [e']
  have hi' : i < 2 := hi
  have a1 := mul_nonneg (show (0 : ℝ) ≤ p.R_b by linarith) hu0
  have a2 := mul_nonneg (show (0 : ℝ) ≤ p.R_b by linarith) (sub_nonneg.2 hu1)
  interval_cases i
  · simp only [List.getElem_cons_zero]
    rw [hb]
    have q : (1 - u) ^ 2 ≤ 1 := by nlinarith
    have q0 : 0 ≤ (1 - u) ^ 2 := sq_nonneg _
    have b1 := mul_nonneg (show (0 : ℝ) ≤ 0.15 * p.L_b by linarith) q0
    have b2 := mul_nonneg (show (0 : ℝ) ≤ 0.15 * p.L_b by linarith) (sub_nonneg.2 q)
    have b3 := mul_nonneg a1 (show 0 ≤ 0.6 + 0.4 * u by linarith)
    have b4 := mul_nonneg a2 (show 0 ≤ 1 + 0.4 * u by linarith)
    refine ⟨⟨?_, ?_⟩, ⟨?_, ?_⟩, rfl⟩ <;> simp only <;> linarith
  · simp only [List.getElem_cons_zero, List.getElem_cons_succ]
    rw [ht, he, fnOf_line]
    refine ⟨⟨?_, ?_⟩, ⟨?_, ?_⟩, ?_⟩ <;> simp only <;> linarith

end D21

namespace Spec

/-- The sizes of the six parts of a D-21 with the meshes `M 0`, …, `M 5`. -/
structure D21Sized (p : D21.Params) (M : ℕ → TriMesh ℝ) : Prop where
  /-- The body length. -/
  fuselage_length : Spans (·.x) (-p.L_b) 0 (M 0)
  /-- The body radius. -/
  fuselage_width : Spans (·.y) (-p.R_b) p.R_b (M 0)
  fuselage_height : Spans (·.z) (-p.R_b) p.R_b (M 0)
  fuselage_round : ∀ v, IsVertex v (M 0) → axisDist v ≤ p.R_b
  /-- The nose sits in the front of the fuselage. -/
  nose_length : Spans (·.x) (-0.6) (0.15 * p.L_b - 0.1) (M 1)
  nose_round : ∀ v, IsVertex v (M 1) → axisDist v ≤ p.R_b
  /-- Wing length and width; the flaps at the back. -/
  wing_box : ∀ v, IsVertex v (M 2) → v.x ≤ max (-0.3) (-p.L_w - 0.1 * p.L_w * Real.cos (p.flap_angle * (Real.pi / 180))) + 0.06 ∧
    min (-p.L_w) (-p.L_w - 0.1 * p.L_w * Real.cos (p.flap_angle * (Real.pi / 180))) - 0.06 ≤ v.x ∧ |v.y| ≤ p.W_w + 0.06
  wing_tips : ∀ s, s = 1 ∨ s = -1 → IsVertex ⟨-p.L_w, s * p.W_w, 0.15 * p.R_b / 2⟩ (M 2) ∧ ∃ z, IsVertex ⟨-p.L_w, s * (p.W_w + 0.01), z⟩ (M 2)
  wing_front : IsVertex ⟨-0.3 + 0.01, 0, -0.25⟩ (M 2)
  /-- The tail. -/
  tail : StandsOver (M 3) (upright (0.95 * p.R_b)) (0.15 * p.R_b) [(-p.L_b, 0), (-p.L_b, 0.15 * p.W_w),
    (-p.L_b + 0.4 * (p.L_b - p.L_w), 0.15 * p.W_w), (-p.L_w, 0)]
  tail_box : BoxedBy (M 3) (upright (0.95 * p.R_b)) (-p.L_b - 0.06) (-p.L_w + 0.06) (0 - 0.06) (0.15 * p.W_w + 0.06) (0.15 * p.R_b / 2 + 1e-12)
  /-- The trailing wings. -/
  trailing : ∀ i s, i = 4 ∧ s = 1 ∨ i = 5 ∧ s = -1 → StandsOver (M i) (sideways s) (0.15 * p.R_b) [(-p.L_b, 0), (-p.L_b, 0.45 * p.W_w),
    (-p.L_b + 1.3 * (p.L_b - p.L_w), 0.45 * p.W_w), (-p.L_b + 1.3 * (p.L_b - p.L_w), 0)]
  trailing_box : ∀ i s, i = 4 ∧ s = 1 ∨ i = 5 ∧ s = -1 → BoxedBy (M i) (sideways s) (-p.L_b - 0.06) (-p.L_b + 1.3 * (p.L_b - p.L_w) + 0.06)
    (0 - 0.06) (0.45 * p.W_w + 0.06) (0.15 * p.R_b / 2 + 1e-12)

end Spec

/-- What is said of part number `i` with the mesh `m`. -/
def D21.PartSized (p : D21.Params) (i : ℕ) (m : TriMesh ℝ) : Prop := ∀ M : ℕ → TriMesh ℝ, M i = m → match i with
  | 0 => Spans (·.x) (-p.L_b) 0 (M 0) ∧ Spans (·.y) (-p.R_b) p.R_b (M 0) ∧ Spans (·.z) (-p.R_b) p.R_b (M 0) ∧
      ∀ v, IsVertex v (M 0) → axisDist v ≤ p.R_b
  | 1 => Spans (·.x) (-0.6) (0.15 * p.L_b - 0.1) (M 1) ∧ ∀ v, IsVertex v (M 1) → axisDist v ≤ p.R_b
  | 2 => (∀ v, IsVertex v (M 2) → v.x ≤ max (-0.3) (-p.L_w - 0.1 * p.L_w * Real.cos (p.flap_angle * (Real.pi / 180))) + 0.06 ∧
      min (-p.L_w) (-p.L_w - 0.1 * p.L_w * Real.cos (p.flap_angle * (Real.pi / 180))) - 0.06 ≤ v.x ∧ |v.y| ≤ p.W_w + 0.06) ∧
      (∀ s, s = 1 ∨ s = -1 → IsVertex ⟨-p.L_w, s * p.W_w, 0.15 * p.R_b / 2⟩ (M 2) ∧ ∃ z, IsVertex ⟨-p.L_w, s * (p.W_w + 0.01), z⟩ (M 2)) ∧
      IsVertex ⟨-0.3 + 0.01, 0, -0.25⟩ (M 2)
  | 3 => StandsOver (M 3) (upright (0.95 * p.R_b)) (0.15 * p.R_b) [(-p.L_b, 0), (-p.L_b, 0.15 * p.W_w),
      (-p.L_b + 0.4 * (p.L_b - p.L_w), 0.15 * p.W_w), (-p.L_w, 0)] ∧
      BoxedBy (M 3) (upright (0.95 * p.R_b)) (-p.L_b - 0.06) (-p.L_w + 0.06) (0 - 0.06) (0.15 * p.W_w + 0.06) (0.15 * p.R_b / 2 + 1e-12)
  | j => ∀ s, j = 4 ∧ s = 1 ∨ j = 5 ∧ s = -1 → StandsOver (M j) (sideways s) (0.15 * p.R_b) [(-p.L_b, 0), (-p.L_b, 0.45 * p.W_w),
      (-p.L_b + 1.3 * (p.L_b - p.L_w), 0.45 * p.W_w), (-p.L_b + 1.3 * (p.L_b - p.L_w), 0)] ∧ BoxedBy (M j) (sideways s) (-p.L_b - 0.06)
      (-p.L_b + 1.3 * (p.L_b - p.L_w) + 0.06) (0 - 0.06) (0.45 * p.W_w + 0.06) (0.15 * p.R_b / 2 + 1e-12)

theorem isVertex_two {v : V} {l m : TriMesh ℝ} : IsVertex v (l ++ m) ↔ IsVertex v l ∨ IsVertex v m := by
  have := isVertex_flatten (v := v) (l := [l, m])
  simp at this
  exact this

open D21 in
/-- The parts of the generated D-21, one after the other. -/
theorem d21_assembled (ptan : ℝ → ℝ) (h : Heap) (ids : ℕ → ℕ) (hi : Function.Injective ids) (nw nt : ℕ) (kwargs : Dict String ℝ)
    (p : D21.Params) (ha : D21Args kwargs p) (P0 P1 P2 : PathObj) (w : Wing.State) (e0 : fuseLine p = .ok P0) (e1 : noseLine p = .ok P1)
    (e2 : edge p = .ok P2) (ew : Wing.init (rounded bisect01) (wingArgs bisect01 P2 p) = .ok w) (Q : ℕ → TriMesh ℝ → Prop)
    (hQ : ∀ i < 6, ∀ (H : Heap) (k : ℕ), H k = partAt ptan p P0 P1 w i (res0 nw nt i) → ∃ g c M c', generatePatches H k = (.ok (), g) ∧
      pipeline 0 (g k) = (.ok (), c) ∧ c.mesh = (.ok M, c') ∧ Q i M.tris) (lib : Lib) (depth : ℕ) :
    ∃ st st', D21.instanceOf bisect01 ptan h ids nw nt kwargs = .ok st ∧ generate lib depth st = (.ok (), st') ∧ st'.veh.named = d21Names ids ∧
      ∀ i < 6, ∃ M c', (st'.heap (ids i)).mesh = (.ok M, c') ∧ Q i M.tris := by
  obtain ⟨st, b1, b2, b3, v1, v2, v3, f⟩ := d21_instance ptan h ids hi nw nt kwargs p ha P0 P1 P2 w e0 e1 e2 ew
  have hmem : ∀ k ∈ st.veh.components, ∃ i < 6, k = ids i := by
    intro k hk
    rw [b2, List.mem_map] at hk
    obtain ⟨i, hi', rfl⟩ := hk
    exact ⟨i, List.mem_range.1 hi', rfl⟩
  have ch : ∀ k ∈ st.veh.components, (st.heap k).children = [] := by
    intro k hk
    obtain ⟨i, h6, rfl⟩ := hmem k hk
    rw [f i h6]
    interval_cases i <;> rfl
  obtain ⟨st', s1, sv, s2⟩ := generate_parts lib depth st v1 v2 v3
    (unshared_leaves _ _ (by rw [b2]; exact List.nodup_range.map hi) ch)
    (fun k c => ∀ i < 6, k = ids i → ∃ M c', c.mesh = (.ok M, c') ∧ Q i M.tris)
    (by
      intro k hk
      obtain ⟨i, h6, rfl⟩ := hmem k hk
      obtain ⟨g, c, M, c', g1, g2, g3, g4⟩ := hQ i h6 st.heap (ids i) (f i h6)
      refine ⟨g, c, g1, g2, fun j _ hj => ⟨M, c', g3, ?_⟩⟩
      rw [← hi hj]; exact g4)
  refine ⟨st, st', b1, s1, by rw [sv]; exact b3, fun i h6 => ?_⟩
  exact s2 (ids i) (by rw [b2]; exact List.mem_map.2 ⟨i, List.mem_range.2 h6, rfl⟩) i h6 rfl

/-- Being a vertex of a mesh and its mirror image. -/
theorem isVertex_mirrored {v : V} {m : TriMesh ℝ} :
    IsVertex v (m ++ mapVerts (mirrorV 1) m) ↔ IsVertex v m ∨ IsVertex ⟨v.x, -v.y, v.z⟩ m := by
  rw [isVertex_two, isVertex_mapVerts]
  constructor
  · rintro (h | ⟨u, hu, rfl⟩)
    · exact .inl h
    · refine .inr ?_
      convert hu using 1
      ext <;> simp [mirrorV]
  · rintro (h | h)
    · exact .inl h
    · refine .inr ⟨_, h, ?_⟩
      ext <;> simp [mirrorV]

set_option maxHeartbeats 800000 in
open D21 in
/-- C142: for all sensible dimensions the generator of the D-21 gives a vehicle whose fuselage has the body length `L_b` and radius `R_b`, whose wings reach
`W_w` to either side and `L_w` back from the nose, and whose nose, tail and trailing wings have the proportions of the generator.  The rounded edges add at
most `0.06`. -/
theorem C142_d21 (ptan : ℝ → ℝ) (hT : FloatTan ptan) (h : Heap) (ids : ℕ → ℕ) (hi : Function.Injective ids) (nw nt : ℕ) (hnw : 1 ≤ nw)
    (hnt : 1 ≤ nt) (kwargs : Dict String ℝ) (p : D21.Params) (ha : D21Args kwargs p) (hp : D21Ok p) (hc : D21Coarse p nw) (lib : Lib) (depth : ℕ) :
    ∃ st st', D21.instanceOf bisect01 ptan h ids nw nt kwargs = .ok st ∧ generate lib depth st = (.ok (), st') ∧ st'.veh.named = d21Names ids ∧
      ∃ M : ℕ → StlMesh, (∀ i < 6, ∃ c', (st'.heap (ids i)).mesh = (.ok (M i), c')) ∧ D21Sized p fun i => (M i).tris := by
  obtain ⟨P0, e0, -⟩ := fuse_mesh hp
  obtain ⟨P1, e1, -⟩ := nose_mesh hp
  obtain ⟨P2, w, e2, ew, hw⟩ := C140_d21_wing p hp hT
  obtain ⟨st, st', s1, s2, s3, s4⟩ := d21_assembled ptan h ids hi nw nt kwargs p ha P0 P1 P2 w e0 e1 e2 ew
    (D21.PartSized p)
    (by
      intro i h6 H k hk
      have plain : ∀ {h'}, generatePatches H k = (.ok (), h') → k ∉ (H k).children → (H k).modifier = none → (H k).curvatures = none →
          (H k).reflection_axis = none → (H k).transformations = [] → pipeline 0 (h' k) = (.ok (), h' k) := fun g1 => ReFEX.plain_pipeline g1
      interval_cases i
      · obtain ⟨q1, q2, q3, q4, q5⟩ := fuse_profile hp P0 e0
        obtain ⟨h', M, c', g1, g2, g3, g4, g5⟩ := revolved_extent P0 q1 (-p.L_b) 0 p.R_b q4 q2 q3 20 (by norm_num) none H k hk
        refine ⟨h', h' k, M, c', g1, plain g1 (by rw [hk]; simp [partAt, RevolvedComponent, Comp.children]) (by rw [hk]; rfl) (by rw [hk]; rfl)
          (by rw [hk]; rfl) (by rw [hk]; rfl), g2, ?_⟩
        rintro N rfl'
        simp only [rfl']
        obtain ⟨a1, a2⟩ := g5 10 (by norm_num) (by rw [← q5]; norm_num)
        exact ⟨g3, a1, a2, g4⟩
      · obtain ⟨q1, q2, q3, q4⟩ := D21.nose_profile hp P1 e1
        obtain ⟨h', M, c', g1, g2, g3, g4, -⟩ := revolved_extent P1 q1 (-0.6) (0.15 * p.L_b - 0.1) p.R_b q4 q2 q3 20 (by norm_num) none H k hk
        refine ⟨h', h' k, M, c', g1, plain g1 (by rw [hk]; simp [partAt, RevolvedComponent, Comp.children]) (by rw [hk]; rfl) (by rw [hk]; rfl)
          (by rw [hk]; rfl) (by rw [hk]; rfl), g2, ?_⟩
        rintro N rfl'
        simp only [rfl']
        exact ⟨g3, g4⟩
      · obtain ⟨h', M, c', g1, g2, g3, g4, g5, g6, ⟨z, g7⟩, g8⟩ := hw nw hnw hc none (fun _ => Wing.comp ptan w nw none) 0 rfl
        obtain ⟨g, c, M', c'', r1, r2, r3, r4⟩ := reflected_wing ptan w nw hnw h' M c' g1 g2 H k none hk
        refine ⟨g, c, M', c'', r1, r2, r3, ?_⟩
        rintro N rfl'
        simp only [rfl', r4]
        refine ⟨?_, ?_, ?_⟩
        · intro v hv
          rcases isVertex_mirrored.1 hv with hv | hv
          · obtain ⟨a1, a2, a3, a4, -⟩ := g3 _ hv
            exact ⟨a1, a2, abs_le.2 ⟨by linarith [hp.span], a4⟩⟩
          · obtain ⟨a1, a2, a3, a4, -⟩ := g3 _ hv
            simp only at a1 a2 a3 a4
            exact ⟨a1, a2, abs_le.2 ⟨by linarith, by linarith [hp.span]⟩⟩
        · have t1 := g4 (-p.L_w, p.W_w) (by simp)
          rintro s (rfl | rfl)
          · exact ⟨isVertex_mirrored.2 (.inl (by simpa using t1)), z, isVertex_mirrored.2 (.inl (by simpa using g7))⟩
          · exact ⟨isVertex_mirrored.2 (.inr (by simpa using t1)), z, isVertex_mirrored.2 (.inr (by simpa [add_comm] using g7))⟩
        · exact isVertex_mirrored.2 (.inl g8)
      · obtain ⟨h', M, c', g1, g2, g3, g4, -⟩ := C139_d21_tail p hp hT nt hnt none H k hk
        refine ⟨h', h' k, M, c', g1, plain g1 (by rw [hk]; simp [partAt, Fin.comp, Comp.children]) (by rw [hk]; rfl) (by rw [hk]; rfl)
          (by rw [hk]; rfl) (by rw [hk]; rfl), g2, ?_⟩
        rintro N rfl'
        simp only [rfl']
        exact ⟨g3, g4⟩
      · obtain ⟨h', M, c', g1, g2, g3, g4, -⟩ := C139_d21_trailing p hp hT 0 1 (.inl ⟨rfl, rfl⟩) nt hnt none H k hk
        refine ⟨h', h' k, M, c', g1, plain g1 (by rw [hk]; simp [partAt, Fin.comp, Comp.children]) (by rw [hk]; rfl) (by rw [hk]; rfl)
          (by rw [hk]; rfl) (by rw [hk]; rfl), g2, ?_⟩
        rintro N rfl' s (⟨-, rfl⟩ | ⟨h, -⟩)
        · simp only [rfl']; exact ⟨g3, g4⟩
        · omega
      · obtain ⟨h', M, c', g1, g2, g3, g4, -⟩ := C139_d21_trailing p hp hT 180 (-1) (.inr ⟨rfl, rfl⟩) nt hnt none H k hk
        refine ⟨h', h' k, M, c', g1, plain g1 (by rw [hk]; simp [partAt, Fin.comp, Comp.children]) (by rw [hk]; rfl) (by rw [hk]; rfl)
          (by rw [hk]; rfl) (by rw [hk]; rfl), g2, ?_⟩
        rintro N rfl' s (⟨h, -⟩ | ⟨-, rfl⟩)
        · omega
        · simp only [rfl']; exact ⟨g3, g4⟩) lib depth
  refine ⟨st, st', s1, s2, s3, ?_⟩
  have : ∀ i, ∃ M : StlMesh, i < 6 → (∃ c', (st'.heap (ids i)).mesh = (.ok M, c')) ∧ D21.PartSized p i M.tris := by
    intro i
    by_cases h6 : i < 6
    · obtain ⟨M, c', k1, k2⟩ := s4 i h6
      exact ⟨M, fun _ => ⟨⟨c', k1⟩, k2⟩⟩
    · exact ⟨⟨[], []⟩, fun h => absurd h h6⟩
  choose M hM using this
  refine ⟨M, fun i h6 => (hM i h6).1, ?_⟩
  have key := fun (i : ℕ) (h6 : i < 6) => (hM i h6).2 (fun i => (M i).tris) rfl
  obtain ⟨a1, a2, a3, a4⟩ := key 0 (by norm_num)
  obtain ⟨b1, b2⟩ := key 1 (by norm_num)
  obtain ⟨c1, c2, c3⟩ := key 2 (by norm_num)
  obtain ⟨d1, d2⟩ := key 3 (by norm_num)
  have f4 := key 4 (by norm_num)
  have f5 := key 5 (by norm_num)
  refine ⟨a1, a2, a3, a4, b1, b2, c1, c2, c3, d1, d2, ?_, ?_⟩
  · rintro i s (⟨rfl, rfl⟩ | ⟨rfl, rfl⟩)
    · exact (f4 1 (.inl ⟨rfl, rfl⟩)).1
    · exact (f5 (-1) (.inr ⟨rfl, rfl⟩)).1
  · rintro i s (⟨rfl, rfl⟩ | ⟨rfl, rfl⟩)
    · exact (f4 1 (.inl ⟨rfl, rfl⟩)).2
    · exact (f5 (-1) (.inr ⟨rfl, rfl⟩)).2

/-- C142, the vehicle as a whole: a D-21 of usual proportions is `1.15 L_b - 0.1` long, from the tip of the nose to the rear of the body, and `2 W_w` wide,
each plus at most `0.12`, and at least `0.01` wider on either side, for the rounded edges. -/
theorem C142_overall (p : D21.Params) (hp : D21Ok p) (M : ℕ → TriMesh ℝ) (hM : D21Sized p M) (h1 : 1.1 * p.L_w ≤ p.L_b) (h2 : p.L_b ≤ 4 * p.L_w)
    (h3 : p.R_b ≤ p.W_w) (lo hi lo' hi' : ℝ) (hx : Spans (·.x) lo hi ((List.range 6).map M).flatten)
    (hy : Spans (·.y) lo' hi' ((List.range 6).map M).flatten) :
    (1.15 * p.L_b - 0.1 ≤ hi - lo ∧ hi - lo ≤ 1.15 * p.L_b - 0.04 ∧ hi = 0.15 * p.L_b - 0.1) ∧
      2 * (p.W_w + 0.01) ≤ hi' - lo' ∧ hi' - lo' ≤ 2 * (p.W_w + 0.06) := by
  have hw := hp.wing
  have hs := hp.span
  have hr := hp.radius
  have hl := hp.body
  have all : ∀ v, IsVertex v ((List.range 6).map M).flatten ↔ ∃ i < 6, IsVertex v (M i) := by
    intro v
    rw [isVertex_flatten]
    constructor
    · rintro ⟨m, hm, hv⟩
      obtain ⟨i, hi, rfl⟩ := List.mem_map.1 hm
      exact ⟨i, List.mem_range.1 hi, hv⟩
    · rintro ⟨i, hi, hv⟩
      exact ⟨_, List.mem_map.2 ⟨i, List.mem_range.2 hi, rfl⟩, hv⟩
  have hbox : ∀ v, IsVertex v ((List.range 6).map M).flatten → -p.L_b - 0.06 ≤ v.x ∧ v.x ≤ 0.15 * p.L_b - 0.1 ∧ |v.y| ≤ p.W_w + 0.06 := by
    intro v hv
    obtain ⟨i, h6, hv⟩ := (all v).1 hv
    have hcos := Real.neg_one_le_cos (p.flap_angle * (Real.pi / 180))
    have hcos' := Real.cos_le_one (p.flap_angle * (Real.pi / 180))
    interval_cases i
    · have a := hM.fuselage_length.1 v hv
      have b := hM.fuselage_width.1 v hv
      simp only at a b
      exact ⟨by linarith [a.1], by linarith [a.2], abs_le.2 ⟨by linarith [b.1], by linarith [b.2]⟩⟩
    · have a := hM.nose_length.1 v hv
      have b := hM.nose_round v hv
      simp only at a
      have : |v.y| ≤ axisDist v := by
        unfold axisDist
        exact Real.abs_le_sqrt (by nlinarith [sq_nonneg v.z])
      exact ⟨by linarith [a.1], a.2, by linarith⟩
    · obtain ⟨a, b, c⟩ := hM.wing_box v hv
      have k1 : max (-0.3) (-p.L_w - 0.1 * p.L_w * Real.cos (p.flap_angle * (Real.pi / 180))) ≤ -0.3 :=
        max_le le_rfl (by nlinarith)
      have k2 : -p.L_b ≤ min (-p.L_w) (-p.L_w - 0.1 * p.L_w * Real.cos (p.flap_angle * (Real.pi / 180))) :=
        le_min (by linarith) (by nlinarith)
      exact ⟨by linarith, by linarith, c⟩
    · obtain ⟨u, rfl, a, b, c, d, e⟩ := hM.tail_box v hv
      simp only [upright]
      have := abs_le.1 e
      exact ⟨by linarith, by linarith, abs_le.2 ⟨by linarith [this.1], by linarith [this.2]⟩⟩
    · obtain ⟨u, rfl, a, b, c, d, e⟩ := hM.trailing_box 4 1 (.inl ⟨rfl, rfl⟩) v hv
      simp only [sideways]
      exact ⟨by linarith, by linarith, abs_le.2 ⟨by linarith, by linarith⟩⟩
    · obtain ⟨u, rfl, a, b, c, d, e⟩ := hM.trailing_box 5 (-1) (.inr ⟨rfl, rfl⟩) v hv
      simp only [sideways]
      exact ⟨by linarith, by linarith, abs_le.2 ⟨by linarith, by linarith⟩⟩
  obtain ⟨x1, ⟨u, hu, rfl⟩, ⟨v, hv, rfl⟩⟩ := hx
  obtain ⟨y1, ⟨u', hu', rfl⟩, ⟨v', hv', rfl⟩⟩ := hy
  obtain ⟨-, ⟨b, hb, eb⟩, -⟩ := hM.fuselage_length
  obtain ⟨-, -, ⟨n, hn, en⟩⟩ := hM.nose_length
  obtain ⟨z, t1⟩ := (hM.wing_tips 1 (.inl rfl)).2
  obtain ⟨z', t2⟩ := (hM.wing_tips (-1) (.inr rfl)).2
  have q1 := x1 b ((all b).2 ⟨0, by norm_num, hb⟩)
  have q2 := x1 n ((all n).2 ⟨1, by norm_num, hn⟩)
  have q3 := y1 _ ((all _).2 ⟨2, by norm_num, t1⟩)
  have q4 := y1 _ ((all _).2 ⟨2, by norm_num, t2⟩)
  have r1 := hbox u hu
  have r2 := hbox v hv
  have r3 := abs_le.1 (hbox u' hu').2.2
  have r4 := abs_le.1 (hbox v' hv').2.2
  simp only at *
  refine ⟨⟨?_, ?_, ?_⟩, ?_, ?_⟩ <;> linarith [r3.1, r3.2, r4.1, r4.2, q1.1, q1.2, q2.1, q2.2, q3.1, q3.2, q4.1, q4.2, r1.1, r1.2.1, r2.1, r2.2.1]

/-- A mesh that is not empty has an extent. -/
theorem exists_spans (f : V → ℝ) {m : TriMesh ℝ} (v : V) (hv : IsVertex v m) : ∃ lo hi, Spans f lo hi m := by
  have hfin : {u : V | IsVertex u m}.Finite := by
    have : {u : V | IsVertex u m} ⊆ ⋃ t ∈ {t | t ∈ m}, {t.v0, t.v1, t.v2} := by
      rintro u ⟨t, ht, hu⟩
      simp only [Set.mem_iUnion]
      refine ⟨t, ht, ?_⟩
      simp only [Set.mem_insert_iff, Set.mem_singleton_iff]
      tauto
    exact ((List.finite_toSet m).biUnion fun t _ => Set.toFinite _).subset this
  obtain ⟨a, ha, ha'⟩ := Set.exists_min_image _ f hfin ⟨v, hv⟩
  obtain ⟨b, hb, hb'⟩ := Set.exists_max_image _ f hfin ⟨v, hv⟩
  exact ⟨f a, f b, fun u hu => ⟨ha' u hu, hb' u hu⟩, ⟨a, ha, rfl⟩, ⟨b, hb, rfl⟩⟩

/-- The default D-21: 22.9 to 22.96 metres long and 10.02 to 10.12 metres wide. -/
example (h : Heap) (lib : Lib) (depth : ℕ) : ∃ st st', D21.instanceOf bisect01 ieeeTan h id 3 3 [] = .ok st ∧ generate lib depth st = (.ok (), st') ∧
    ∃ M : ℕ → StlMesh, (∀ i < 6, ∃ c', (st'.heap i).mesh = (.ok (M i), c')) ∧ Spans (·.x) (-20) 0 (M 0).tris ∧
      ∃ lo hi lo' hi', Spans (·.x) lo hi ((List.range 6).map fun i => (M i).tris).flatten ∧
        Spans (·.y) lo' hi' ((List.range 6).map fun i => (M i).tris).flatten ∧ 22.9 ≤ hi - lo ∧ hi - lo ≤ 22.96 ∧ 10.02 ≤ hi' - lo' ∧ hi' - lo' ≤ 10.12 := by
  obtain ⟨st, st', h1, h2, -, M, h3, h4⟩ := C142_d21 ieeeTan ieeeTan_float h id Function.injective_id 3 3 (by norm_num) (by norm_num) [] _
    d21Default_ok.1 d21Default_ok.2 (d21Default_coarse 3 (by norm_num)) lib depth
  refine ⟨st, st', h1, h2, M, h3, by simpa [d21Default] using h4.fuselage_length, ?_⟩
  obtain ⟨-, ⟨b, hb, -⟩, -⟩ := h4.fuselage_length
  have hb' : IsVertex b ((List.range 6).map fun i => (M i).tris).flatten :=
    isVertex_flatten.2 ⟨_, List.mem_map.2 ⟨0, List.mem_range.2 (by norm_num), rfl⟩, hb⟩
  obtain ⟨lo, hi, hx⟩ := exists_spans (·.x) b hb'
  obtain ⟨lo', hi', hy⟩ := exists_spans (·.y) b hb'
  obtain ⟨⟨k1, k2, -⟩, k3, k4⟩ := C142_overall _ d21Default_ok.2 _ h4 (by norm_num [d21Default]) (by norm_num [d21Default]) (by norm_num [d21Default]) _ _ _ _ hx hy
  refine ⟨lo, hi, lo', hi', hx, hy, ?_, ?_, ?_, ?_⟩ <;> norm_num [d21Default] at k1 k2 k3 k4 <;> linarith

end HV
