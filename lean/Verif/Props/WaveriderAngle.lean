import Verif.Props.Waverider
import Mathlib.Analysis.SpecialFunctions.Trigonometric.ArctanDeriv
import Mathlib.Analysis.SpecialFunctions.Trigonometric.Bounds
import Mathlib.Analysis.Real.Pi.Bounds

/-!
# C108 and C118: the flaps and the angle of attack of the waverider
-/

namespace HV
open Spec Veh

namespace Spec

/-- The meshes `m₁`, `m₂` of a pair of parts make up one part and its mirror image in the plane in which coordinate `i` vanishes, each once. -/
def MirroredPairIn (i : Fin 3) (m₁ m₂ : TriMesh ℝ) : Prop :=
  (m₁ ++ m₂).Perm (m₁ ++ mapVerts (mirrorV i) m₁)

/-- The line `Q`, which ends at the nose for parameter 1, meets a flow along the `x` axis at angle of attack `α` (in radians): seen from the nose
downstream it falls by the angle `α` from the direction of the flow. -/
def NoseAngle (Q : ℝ → V) (α : ℝ) : Prop :=
  ∃ k > 0, HasDerivWithinAt (fun r => (Q r).x) (-k * Real.cos α) (Set.Icc 0 1) 1 ∧ HasDerivWithinAt (fun r => (Q r).y) (k * Real.sin α) (Set.Icc 0 1) 1

/-- The slope that the curvature along the body has at the nose. -/
noncomputable def noseSlope (p : Waverider.Params) : ℝ := 0.5 * (p.x_curve_mult - p.curve_zero) * p.length

end Spec

namespace Waverider

/-- Rotation about the `z` axis by an angle in radians. -/
noncomputable def turnZ (a : ℝ) (p : V) : V := ⟨Real.cos a * p.x - Real.sin a * p.y, Real.sin a * p.x + Real.cos a * p.y, p.z⟩

theorem moved_z {θ : ℝ} {p q : V} (h : Moved (.rotate θ "z") p q) : q = turnZ (θ * Real.pi / 180) p := by
  cases h with
  | rotate a e =>
    rename_i i
    have hi : i = 2 := by
      fin_cases i
      · exact absurd a (by simp [NamesAxis])
      · exact absurd a (by simp [NamesAxis])
      · rfl
    subst hi
    have x := congrFun e 0
    have y := congrFun e 1
    have z := congrFun e 2
    simp [rodrigues_apply, cross_apply, toF] at x y z
    unfold turnZ
    ext
    · simp only [x]; ring
    · simp only [y]; ring
    · simp only [z]; ring

theorem pointMap_moved {t : Transf} {f : V → V} (h : PointMap t f) (p : V) : Moved t p (f p) := by
  match t, h with
  | .rotate angle axis, ⟨i, hi, hf⟩ => exact .rotate hi (hf p)
  | .translate (.vector v), hf => exact .vector (by rw [hf p]) (by rw [hf p]) (by rw [hf p])
  | .translate (.callable g), ⟨d, hd, hf⟩ => exact .callable (hd _ _ _) (by rw [hf p]) (by rw [hf p]) (by rw [hf p])

theorem inTurn_moved {ts : List Transf} {A : V → V} (h : InTurn ts A) (p : V) : MovedAll ts p (A p) := by
  obtain ⟨fs, hf, hA⟩ := h
  rw [hA]
  clear hA
  induction hf generalizing p with
  | nil => exact .nil p
  | cons h _ ih => exact .cons (pointMap_moved h p) (ih _)

theorem moved_split {ts us : List Transf} {p q : V} (h : MovedAll (ts ++ us) p q) : ∃ r, MovedAll ts p r ∧ MovedAll us r q := by
  induction ts generalizing p with
  | nil => exact ⟨p, .nil p, h⟩
  | cons t ts ih =>
    cases h with
    | cons h1 h2 =>
      obtain ⟨r, h3, h4⟩ := ih h2
      exact ⟨r, .cons h1 h3, h4⟩

theorem moved_all {θ : ℝ} {p q : V} (h : MovedAll (CART3D ++ [.rotate θ "z"]) p q) : q = turnZ (θ * Real.pi / 180) (cart3d p) := by
  obtain ⟨r, h1, h2⟩ := moved_split h
  rw [moved_cart3d _ _ h1] at h2
  cases h2 with
  | cons h2 h3 =>
    cases h3
    exact moved_z h2

end Waverider

open Waverider

/-- C108 for the waverider: whatever the parameters, the two flaps of a generated waverider are one part and its mirror image in the plane `z = 0`
(the plane of symmetry after `CART3D` and the rotation by the angle of attack), each once. -/
theorem C108_waverider (ptan : ℝ → ℝ) (hT : FloatTan ptan) (h : Heap) (ids : ℕ → ℕ) (hi : Function.Injective ids) (nf nw nt : ℕ)
    (hf : 1 ≤ nf) (hw : 1 ≤ nw) (ht : 1 ≤ nt) (kwargs : Dict String ℝ) (p : Waverider.Params) (ha : WaveriderArgs kwargs p) (hp : WaveriderOk p)
    (lib : Lib) (depth : ℕ) :
    ∃ st st' M₁ M₂ c₁ c₂, Waverider.instanceOf bisect01 ptan h ids nf nw nt kwargs = .ok st ∧ generate lib depth st = (.ok (), st') ∧
      Dict.get st.veh.named "right_flap" = .ok (ids 2) ∧ Dict.get st.veh.named "left_flap" = .ok (ids 3) ∧
      (st'.heap (ids 2)).mesh = (.ok M₁, c₁) ∧ (st'.heap (ids 3)).mesh = (.ok M₂, c₂) ∧
      M₂.tris = mapVerts (mirrorV 2) M₁.tris ∧ MirroredPairIn 2 M₁.tris M₂.tris := by
  obtain ⟨st, b1, -, b2, -, -, -, -, -, mf, -, b3⟩ := waverider_meshes ptan hT h ids hi nf nw nt hf hw ht kwargs p ha hp
  obtain ⟨A, st', n2, n3, hI, -, g, -, -, ⟨-, -, M2, d2, e2, k2⟩, ⟨-, -, M3, d3, e3, k3⟩, -, q2, q3⟩ := b3 st lib depth ⟨rfl, fun k => .inl rfl⟩
  obtain rfl := q2 rfl
  obtain rfl := q3 rfl
  have hA : ∀ p, A (mirrorV 1 p) = mirrorV 2 (A p) := by
    intro p
    rw [moved_all (inTurn_moved hI p), moved_all (inTurn_moved hI _)]
    simp [turnZ, cart3d, mirrorV]
  have e : M3.tris = mapVerts (mirrorV 2) M2.tris := by
    rw [k2, k3]
    simp [mapVerts, hA]
  refine ⟨st, st', M2, M3, d2, d3, b1, g, by rw [b2]; rfl, by rw [b2]; rfl, e2, e3, e, ?_⟩
  unfold MirroredPairIn
  rw [e]

/-- The two flaps of the waverider without arguments. -/
example (h : Heap) (lib : Lib) (depth : ℕ) : ∃ st st' M₁ M₂ c₁ c₂, Waverider.instanceOf bisect01 ieeeTan h id 30 30 4 [] = .ok st ∧
    generate lib depth st = (.ok (), st') ∧ (st'.heap 2).mesh = (.ok M₁, c₁) ∧ (st'.heap 3).mesh = (.ok M₂, c₂) ∧ MirroredPairIn 2 M₁.tris M₂.tris := by
  obtain ⟨st, st', M₁, M₂, c₁, c₂, h1, h2, -, -, h3, h4, -, h5⟩ := C108_waverider ieeeTan ieeeTan_float h id Function.injective_id 30 30 4
    (by norm_num) (by norm_num) (by norm_num) [] _ waveriderDefault_ok.1 waveriderDefault_ok.2 lib depth
  exact ⟨st, st', M₁, M₂, c₁, c₂, h1, h2, h3, h4, h5⟩

/-! ## The angle of attack -/

namespace Waverider


theorem curved_keel {p : Params} {X : ℝ} {q : V} (h : CurvedAll (curvatures p) ⟨X, 0, 0⟩ q) : q = ⟨X, 0, curvX p X 0⟩ := by
  unfold curvatures at h
  cases h with
  | cons h1 h2 =>
    cases h2 with
    | cons h2 h3 =>
      cases h3
      rename_i u
      obtain ⟨f, m, ν, e1, -, e2, -⟩ := h1
      obtain ⟨f', m', ν', e1', e3', e2', e4', e5', -, e6'⟩ := h2
      have eu : u = ⟨X, 0, curvX p X 0⟩ := by
        simp only [Except.ok.injEq] at e1
        rw [zero_smul, add_zero] at e2
        rw [← e1] at e2
        exact Vec.toE_injective e2
      subst eu
      simp only [Except.ok.injEq, curvY, curvYd, mul_zero, ne_eq, OfNat.ofNat_ne_zero, not_false_eq_true, zero_pow] at e1' e3'
      subst e1' e3'
      obtain ⟨nx, hi⟩ := e6' rfl
      have ny : ν'.y = 0 := by
        simpa [toE, inner, Fin.sum_univ_three] using hi
      have nz : ν'.z = 1 := by
        rw [EuclideanSpace.norm_eq] at e4'
        simp [toE, Fin.sum_univ_three, nx, ny] at e4'
        rcases e4' with e | e
        · exact e
        · linarith
      have x := congrArg (fun v : E3 => v 0) e2'
      have y := congrArg (fun v : E3 => v 1) e2'
      have z := congrArg (fun v : E3 => v 2) e2'
      simp [toE, nx, ny, nz] at x y z
      ext
      exacts [x, y, z]

/-- The keel of the generated waverider. -/
noncomputable def keel (p : Params) (r : ℝ) : V :=
  turnZ (-adjustAoa p p.aoa * Real.pi / 180) (cart3d ⟨Cubic.fuseX p.f1x p.length r, 0, curvX p (Cubic.fuseX p.f1x p.length r) 0⟩)

theorem keel_angle {p : Params} (hp : WaveriderOk p) :
    NoseAngle (keel p) (p.aoa * Real.pi / 180 + (noseSlope p - Real.arctan (noseSlope p))) := by
  have hL := hp.length
  have hf := hp.nose.1
  set s := noseSlope p with hs
  set β := -adjustAoa p p.aoa * Real.pi / 180 with hβ
  have eβ : p.aoa * Real.pi / 180 + (s - Real.arctan s) = -(β + Real.arctan s) := by
    have : adjustAoa p p.aoa * Real.pi / 180 = p.aoa * Real.pi / 180 + s := by
      unfold adjustAoa rad2deg curvXd
      rw [hs, noseSlope]
      field_simp
      ring
    rw [hβ]
    linarith
  have hw : 0 < √(1 + s ^ 2) := by positivity
  have c1 : Real.cos (β + Real.arctan s) * √(1 + s ^ 2) = Real.cos β - Real.sin β * s := by
    rw [Real.cos_add, Real.cos_arctan, Real.sin_arctan]
    field_simp
  have s1 : Real.sin (β + Real.arctan s) * √(1 + s ^ 2) = Real.sin β + Real.cos β * s := by
    rw [Real.sin_add, Real.cos_arctan, Real.sin_arctan]
    field_simp
  have dX : HasDerivAt (Cubic.fuseX p.f1x p.length) (4 * p.f1x) 1 := by
    have h1 : HasDerivAt (fun t : ℝ => 1 - t) (-1) 1 := by simpa using (hasDerivAt_id (1 : ℝ)).const_sub 1
    have h0 := hasDerivAt_id (1 : ℝ)
    have a := ((h0.const_mul (4 * p.f1x)).mul (h1.pow 3)).add ((((h0.pow 2).const_mul (6 * (p.length / 2)))).mul (h1.pow 2))
    have b := (a.add (((h0.pow 3).const_mul (4 * (p.length - p.f1x))).mul h1)).add ((h0.pow 4).const_mul p.length)
    refine (b.congr_deriv ?_).congr_of_eventuallyEq (Filter.Eventually.of_forall fun t => ?_)
    · simp; ring
    · simp [Cubic.fuseX]
  have dZ : HasDerivAt (fun r => curvX p (Cubic.fuseX p.f1x p.length r) 0) (4 * p.f1x * s) 1 := by
    unfold curvX
    refine ((dX.pow 2).const_mul (5 * (p.x_curve_mult - p.curve_zero) * 0.05)).congr_deriv ?_
    rw [Cubic.fuseX_one, hs, noseSlope]
    norm_num
    ring
  rw [eβ, NoseAngle]
  refine ⟨4 * p.f1x * √(1 + s ^ 2), by have : 0 < p.f1x := by linarith
                                       positivity, ?_, ?_⟩
  · have := ((dX.neg.const_mul (Real.cos β)).sub (dZ.neg.const_mul (Real.sin β))).hasDerivWithinAt (s := Set.Icc 0 1)
    refine (this.congr_deriv ?_).congr_of_eventuallyEq (Filter.Eventually.of_forall fun t => ?_) ?_
    · rw [Real.cos_neg]; linear_combination (4 * p.f1x) * c1
    · simp [keel, turnZ, cart3d, hβ]
    · simp [keel, turnZ, cart3d, hβ]
  · have := ((dX.neg.const_mul (Real.sin β)).add (dZ.neg.const_mul (Real.cos β))).hasDerivWithinAt (s := Set.Icc 0 1)
    refine (this.congr_deriv ?_).congr_of_eventuallyEq (Filter.Eventually.of_forall fun t => ?_) ?_
    · rw [Real.sin_neg]; linear_combination (4 * p.f1x) * s1
    · simp [keel, turnZ, cart3d, hβ]
    · simp [keel, turnZ, cart3d, hβ]

theorem arctan_near (s : ℝ) : |s - Real.arctan s| ≤ |s| ^ 3 / 3 := by
  have pos : ∀ s : ℝ, 0 ≤ s → |s - Real.arctan s| ≤ |s| ^ 3 / 3 := by
    intro s h
    have h1 : Real.arctan s ≤ s := by
      rcases h.eq_or_lt with rfl | h
      · simp
      · have := Real.lt_tan (Real.arctan_pos.2 h) (Real.arctan_lt_pi_div_two s)
        rw [Real.tan_arctan] at this
        exact this.le
    have h2 : Monotone fun s : ℝ => s ^ 3 / 3 - s + Real.arctan s := by
      refine monotone_of_hasDerivAt_nonneg (f' := fun s => s ^ 2 - 1 + 1 / (1 + s ^ 2)) (fun x => ?_) (fun x => ?_)
      · refine (((((hasDerivAt_id x).pow 3).div_const 3).sub (hasDerivAt_id x)).add (Real.hasDerivAt_arctan x)).congr_deriv ?_
        simp
      · have : x ^ 2 - 1 + 1 / (1 + x ^ 2) = x ^ 4 / (1 + x ^ 2) := by
          field_simp; ring
        show (0 : ℝ) ≤ x ^ 2 - 1 + 1 / (1 + x ^ 2)
        rw [this]; positivity
    have h3 := h2 h
    simp at h3
    rw [abs_of_nonneg (by linarith), abs_of_nonneg h]
    linarith
  rcases le_total 0 s with h | h
  · exact pos s h
  · have := pos (-s) (by linarith)
    rw [Real.arctan_neg, abs_neg] at this
    rw [← abs_neg]
    convert this using 2
    ring

/-- The keel is a line of the generated fuselage. -/
theorem keel_patch (ptan : ℝ → ℝ) (hT : FloatTan ptan) (h : Heap) (ids : ℕ → ℕ) (hi : Function.Injective ids) (nf nw nt : ℕ)
    (hf : 1 ≤ nf) (hw : 1 ≤ nw) (ht : 1 ≤ nt) (kwargs : Dict String ℝ) (p : Waverider.Params) (ha : WaveriderArgs kwargs p) (hp : WaveriderOk p)
    (lib : Lib) (depth : ℕ) :
    ∃ st st' S, Waverider.instanceOf bisect01 ptan h ids nf nw nt kwargs = .ok st ∧ generate lib depth st = (.ok (), st') ∧
      Dict.get st.veh.named "fuselage" = .ok (ids 0) ∧ Dict.get (st'.heap (ids 0)).patches "revolved_fuse_3" = .ok S ∧
      ∀ r ∈ Set.Icc (0 : ℝ) 1, S r 0 = .ok (keel p r) := by
  obtain ⟨st, b1, b2, b3, v1, v2, v3, f0, un, mf, -, b4⟩ := waverider_meshes ptan hT h ids hi nf nw nt hf hw ht kwargs p ha hp
  obtain ⟨A, st', n2, n3, -, -, g, -⟩ := b4 st lib depth ⟨rfl, fun k => .inl rfl⟩
  have hk : ids 0 ∈ st.veh.components := by rw [b2]; simp [List.range_succ]
  have hus : Usable (st.heap (ids 0)) := by
    rw [f0]
    refine ⟨?_, ?_, by simp [RevolvedComponent, Comp.addClusteringOptions], by simp [RevolvedComponent, Comp.addClusteringOptions]⟩
    · rintro f h x y z
      cases h
      unfold underside
      split_ifs
      · exact ⟨_, rfl⟩
      · exact ⟨_, rfl⟩
    · rintro l h
      cases h
      intro k hk
      unfold curvatures at hk
      simp only [List.mem_cons, List.not_mem_nil, or_false] at hk
      rcases hk with rfl | rfl
      · exact ⟨.inl rfl, fun _ _ => ⟨_, _, rfl, rfl⟩⟩
      · exact ⟨.inr rfl, fun _ _ => ⟨_, _, rfl, rfl⟩⟩
  have hnr : NewRevolved (st.heap (ids 0)) (fuseLine p) := by
    rw [f0]; exact ⟨rfl, rfl⟩
  have eo : (ownPatches st.heap (ids 0)).patches = revItems (fuseLine p) := by
    have := (genLeaf_revolved st.heap (ids 0) (fuseLine p) hnr).2
    unfold ownPatches generatePatches
    have hg : (st.heap (ids 0)).gen = (RevolvedComponent (fuseLine p)).gen := hnr.1
    rw [hg]
    exact this
  have en : (revItems (fuseLine p)).map Prod.fst = ["revolved_fuse_0", "revolved_fuse_1", "revolved_fuse_2", "revolved_fuse_3"] := rfl
  have rel := C70_points lib depth st st' un g (ids 0) hk hus
    (by
      rw [v2]
      intro t ht
      simp only [List.mem_append, List.mem_singleton] at ht
      rcases ht with ht | rfl
      · exact cart3d_plain t ht
      · exact .rotate _ (i := 2) (.inl rfl))
    (by rw [eo, en]; decide) (by rw [eo, en]; decide)
  rw [eo, v1, v2] at rel
  have ee : expected (st.heap (ids 0)) (revItems (fuseLine p)) = (revItems (fuseLine p)).map fun e => (false, e) := by
    rw [f0]; rfl
  rw [ee] at rel
  unfold PatchesRel at rel
  rw [List.forall₂_map_left_iff] at rel
  unfold revItems at rel
  rw [List.forall₂_map_left_iff] at rel
  simp only [List.range_succ, List.range_zero, List.nil_append, List.cons_append] at rel
  have hget : ∃ S, Dict.get (st'.heap (ids 0)).patches "revolved_fuse_3" = .ok S ∧
      ∀ r s a, RevolvedPatch (fuseLine p) ((3 : ℕ) * Real.pi / 2) ((((3 : ℕ) : ℝ) + 1) * Real.pi / 2) r s = .ok a → ∃ q, S r s = .ok q ∧
        Way (st.heap (ids 0)) 0 (CART3D ++ [.rotate (-adjustAoa p p.aoa) "z"]) false a q := by
    generalize (st'.heap (ids 0)).patches = P at rel
    rcases rel with _ | ⟨⟨n0, -, -⟩, rel⟩
    rcases rel with _ | ⟨⟨n1, -, -⟩, rel⟩
    rcases rel with _ | ⟨⟨n2, -, -⟩, rel⟩
    rcases rel with _ | ⟨⟨n3, w, -⟩, rel⟩
    rename_i e0 e1 e2 e3 l
    obtain ⟨m0, S0⟩ := e0
    obtain ⟨m1, S1⟩ := e1
    obtain ⟨m2, S2⟩ := e2
    obtain ⟨m3, S3⟩ := e3
    simp only at n0 n1 n2 n3
    subst n0 n1 n2 n3
    exact ⟨S3, rfl, w⟩
  obtain ⟨S, hS, w⟩ := hget
  refine ⟨st, st', S, b1, g, by rw [b3]; rfl, hS, fun r hr => ?_⟩
  obtain ⟨q, hq, q1, q2, q3, q4, q5, m1, m2, m3, m4, m5, m6⟩ := w r 0 _ (RevolvedPatch_eq _ _ _ _ _ _ (fuse_call p r))
  rw [hq]
  have hy := (Cubic.fuseY_bounds hp.radius1.1 hp.radius2.1 hp.radius1.2 hp.radius2.2 hr).1
  have ang : ((3 : ℕ) * Real.pi / 2) * (1 - 0) + ((((3 : ℕ) : ℝ) + 1) * Real.pi / 2) * 0 = Real.pi + Real.pi / 2 := by push_cast; ring
  simp only [ang] at m1
  have c0 : Real.cos (Real.pi + Real.pi / 2) = 0 := by rw [Real.cos_add]; simp
  have s0 : Real.sin (Real.pi + Real.pi / 2) = -1 := by rw [Real.sin_add]; simp
  simp only [c0, s0, mul_zero, zero_sub, mul_neg, mul_one, neg_neg] at m1
  rw [f0] at m1 m2 m4 m5
  obtain ⟨d, hd, x1, y1, z1⟩ := m1
  have e1 : q1 = ⟨Cubic.fuseX p.f1x p.length r, 0, 0⟩ := by
    simp only [underside] at hd
    split_ifs at hd with h0
    · simp only [Except.ok.injEq] at hd
      subst hd
      ext
      · simpa using x1
      · simpa using y1
      · simpa using z1
    · simp only [Except.ok.injEq] at hd
      subst hd
      have : Cubic.fuseY p.f1y p.f2y r = 0 := le_antisymm (not_lt.1 h0) hy
      ext
      · simpa using x1
      · simpa using y1
      · simpa [this] using z1
  subst e1
  have e2 := curved_keel m2
  have e3 : q3 = q2 := by
    rw [zero_mul, zero_div] at m3
    refine toF_inj (m3.trans (funext fun j => ?_))
    rw [rodrigues_apply]
    simp
  have e4 : q4 = q3 := m4
  have e5 : q5 = q4 := by cases m5; rfl
  rw [moved_all m6, e5, e4, e3, e2]
  rfl

theorem noseAngle_unique {Q : ℝ → V} {α β : ℝ} (h1 : NoseAngle Q α) (h2 : NoseAngle Q β) : Real.cos (α - β) = 1 := by
  obtain ⟨k, hk, x1, y1⟩ := h1
  obtain ⟨l, hl, x2, y2⟩ := h2
  have u : UniqueDiffWithinAt ℝ (Set.Icc (0 : ℝ) 1) 1 := uniqueDiffOn_Icc_zero_one 1 (by simp)
  have ex := u.eq_deriv _ x1 x2
  have ey := u.eq_deriv _ y1 y2
  have sa := Real.sin_sq_add_cos_sq α
  have sb := Real.sin_sq_add_cos_sq β
  have e : k ^ 2 = l ^ 2 := by
    have : (k * Real.sin α) ^ 2 + (-k * Real.cos α) ^ 2 = (l * Real.sin β) ^ 2 + (-l * Real.cos β) ^ 2 := by rw [ex, ey]
    linear_combination this - k ^ 2 * sa + l ^ 2 * sb
  have ekl : k = l := by nlinarith
  subst ekl
  have c : Real.cos α = Real.cos β := by
    have : k * Real.cos α = k * Real.cos β := by linarith
    exact mul_left_cancel₀ hk.ne' this
  have s : Real.sin α = Real.sin β := mul_left_cancel₀ hk.ne' ey
  rw [Real.cos_sub, c, s]
  linarith

end Waverider

/-- C118, first part: whatever the parameters, the keel of a generated waverider meets the flow at the nose at the nominal angle of attack up to the
third power of the slope of the curvature at the nose: the slope is used in place of its arc tangent. What is missing is the exact angle. -/
theorem C118_partial (ptan : ℝ → ℝ) (hT : FloatTan ptan) (h : Heap) (ids : ℕ → ℕ) (hi : Function.Injective ids) (nf nw nt : ℕ)
    (hf : 1 ≤ nf) (hw : 1 ≤ nw) (ht : 1 ≤ nt) (kwargs : Dict String ℝ) (p : Waverider.Params) (ha : WaveriderArgs kwargs p) (hp : WaveriderOk p)
    (lib : Lib) (depth : ℕ) :
    ∃ st st' S Q ε, Waverider.instanceOf bisect01 ptan h ids nf nw nt kwargs = .ok st ∧ generate lib depth st = (.ok (), st') ∧
      Dict.get st.veh.named "fuselage" = .ok (ids 0) ∧ Dict.get (st'.heap (ids 0)).patches "revolved_fuse_3" = .ok S ∧
      (∀ r ∈ Set.Icc (0 : ℝ) 1, S r 0 = .ok (Q r)) ∧ NoseAngle Q (p.aoa * Real.pi / 180 + ε) ∧
      ε = noseSlope p - Real.arctan (noseSlope p) ∧ |ε| ≤ |noseSlope p| ^ 3 / 3 := by
  obtain ⟨st, st', S, h1, h2, h3, h4, h5⟩ := keel_patch ptan hT h ids hi nf nw nt hf hw ht kwargs p ha hp lib depth
  exact ⟨st, st', S, keel p, _, h1, h2, h3, h4, h5, keel_angle hp, rfl, arctan_near _⟩

/-- C118 without curvature along the body: the angle is exact. -/
theorem C118_flat (ptan : ℝ → ℝ) (hT : FloatTan ptan) (h : Heap) (ids : ℕ → ℕ) (hi : Function.Injective ids) (nf nw nt : ℕ)
    (hf : 1 ≤ nf) (hw : 1 ≤ nw) (ht : 1 ≤ nt) (kwargs : Dict String ℝ) (p : Waverider.Params) (ha : WaveriderArgs kwargs p) (hp : WaveriderOk p)
    (hc : p.x_curve_mult = p.curve_zero) (lib : Lib) (depth : ℕ) :
    ∃ st st' S Q, Waverider.instanceOf bisect01 ptan h ids nf nw nt kwargs = .ok st ∧ generate lib depth st = (.ok (), st') ∧
      Dict.get st.veh.named "fuselage" = .ok (ids 0) ∧ Dict.get (st'.heap (ids 0)).patches "revolved_fuse_3" = .ok S ∧
      (∀ r ∈ Set.Icc (0 : ℝ) 1, S r 0 = .ok (Q r)) ∧ NoseAngle Q (p.aoa * Real.pi / 180) := by
  obtain ⟨st, st', S, Q, ε, h1, h2, h3, h4, h5, h6, h7, -⟩ := C118_partial ptan hT h ids hi nf nw nt hf hw ht kwargs p ha hp lib depth
  have : noseSlope p = 0 := by simp [noseSlope, hc]
  rw [this] at h7
  simp only [Real.arctan_zero, sub_zero] at h7
  rw [h7, add_zero] at h6
  exact ⟨st, st', S, Q, h1, h2, h3, h4, h5, h6⟩

/-- The waverider without arguments: the angle differs from 3 degrees by less than `1e-10`. -/
example (h : Heap) (lib : Lib) (depth : ℕ) : ∃ st st' S Q ε, Waverider.instanceOf bisect01 ieeeTan h id 30 30 4 [] = .ok st ∧
    generate lib depth st = (.ok (), st') ∧ Dict.get (st'.heap 0).patches "revolved_fuse_3" = .ok S ∧
    (∀ r ∈ Set.Icc (0 : ℝ) 1, S r 0 = .ok (Q r)) ∧ NoseAngle Q (3 * Real.pi / 180 + ε) ∧ |ε| < 1e-10 := by
  obtain ⟨st, st', S, Q, ε, h1, h2, -, h4, h5, h6, -, h8⟩ := C118_partial ieeeTan ieeeTan_float h id Function.injective_id 30 30 4
    (by norm_num) (by norm_num) (by norm_num) [] _ waveriderDefault_ok.1 waveriderDefault_ok.2 lib depth
  refine ⟨st, st', S, Q, ε, h1, h2, h4, h5, h6, h8.trans_lt ?_⟩
  norm_num [noseSlope, waveriderDefault, abs_of_pos]

/-- The waverider with `x_curve_mult=7`. -/
noncomputable def waveriderCurved : Waverider.Params := { waveriderDefault with x_curve_mult := 7 }

theorem waveriderCurved_ok : WaveriderArgs [("x_curve_mult", 7)] waveriderCurved ∧ WaveriderOk waveriderCurved := by
  constructor
  · constructor <;> first | (refine .inr ⟨?_, rfl⟩; simp; done) | (refine .inl ?_; simp [waveriderCurved]; done) | (simp [Dict.keys]; done)
  · have hb : waveriderFactor waveriderCurved ≤ 5e6 := by
      unfold waveriderFactor parabolaFactor bendX bendY waveriderX waveriderY waveriderZ waveriderCurved waveriderDefault
      norm_num [abs_of_pos, max_def]
    constructor <;> first | exact hb | (simp only [waveriderCurved, waveriderDefault]; norm_num)

/-- C118 is violated: `ParametricWaverider(x_curve_mult=7)`, for which the slope at the nose is 1, meets the flow not at 3 degrees but at
`3 + (180 - 45 π) / π`, more than 15 degrees. -/
theorem C118_violated (h : Heap) (lib : Lib) (depth : ℕ) : ∃ st st' S Q,
    Waverider.instanceOf bisect01 ieeeTan h id 30 30 4 [("x_curve_mult", 7)] = .ok st ∧ generate lib depth st = (.ok (), st') ∧
    Dict.get st.veh.named "fuselage" = .ok 0 ∧ Dict.get (st'.heap 0).patches "revolved_fuse_3" = .ok S ∧
    (∀ r ∈ Set.Icc (0 : ℝ) 1, S r 0 = .ok (Q r)) ∧ ¬ NoseAngle Q (3 * Real.pi / 180) ∧ NoseAngle Q (3 * Real.pi / 180 + (1 - Real.pi / 4)) := by
  obtain ⟨st, st', S, Q, ε, h1, h2, h3, h4, h5, h6, h7, -⟩ := C118_partial ieeeTan ieeeTan_float h id Function.injective_id 30 30 4
    (by norm_num) (by norm_num) (by norm_num) _ _ waveriderCurved_ok.1 waveriderCurved_ok.2 lib depth
  have hs : noseSlope waveriderCurved = 1 := by norm_num [noseSlope, waveriderCurved, waveriderDefault]
  rw [hs, Real.arctan_one] at h7
  rw [h7] at h6
  refine ⟨st, st', S, Q, h1, h2, h3, h4, h5, fun hn => ?_, h6⟩
  have := noseAngle_unique h6 hn
  have hp := Real.pi_lt_d2
  have hp2 := Real.pi_gt_three
  have hlt : Real.cos (1 - Real.pi / 4) < Real.cos 0 :=
    Real.cos_lt_cos_of_nonneg_of_le_pi le_rfl (by linarith) (by linarith)
  rw [Real.cos_zero] at hlt
  have e : waveriderCurved.aoa = 3 := rfl
  rw [e, add_sub_cancel_left] at this
  linarith

end HV
