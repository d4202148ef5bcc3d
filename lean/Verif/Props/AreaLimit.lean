import Verif.Lemmas.MeshLimit
import Verif.Props.PolygonVolume
import Verif.Props.MassProps
import Verif.Lemmas.Watertight

/-! C153: surface area, enclosed volume and first moment of the meshes converge to those of the surface. -/

namespace HV
open Spec Filter Topology

namespace Spec

/-- The length of a vector given by its coordinates. -/
noncomputable def lenF (a : Fin 3 → ℝ) : ℝ := Real.sqrt (a 0 ^ 2 + a 1 ^ 2 + a 2 ^ 2)

/-- The scalar product of vectors given by their coordinates. -/
def dotF (a b : Fin 3 → ℝ) : ℝ := a 0 * b 0 + a 1 * b 1 + a 2 * b 2

/-- A surface and its partial derivatives. -/
structure Sheet where
  G : ℝ → ℝ → V
  Gr : ℝ → ℝ → V
  Gs : ℝ → ℝ → V

/-- The normal of a sheet, as long as the area element. -/
def Sheet.normal (S : Sheet) (r s : ℝ) : Fin 3 → ℝ := crossF (co (S.Gr r s)) (co (S.Gs r s))

/-- The area of a sheet. -/
noncomputable def Sheet.area (S : Sheet) : ℝ := ∫ r in (0 : ℝ)..1, ∫ s in (0 : ℝ)..1, lenF (S.normal r s)

/-- The volume of the cone over a sheet with apex in the origin: a third of the flux of the position through it.  For the sheets of a closed surface
the sum of these numbers is the volume enclosed (divergence theorem). -/
noncomputable def Sheet.volume (S : Sheet) : ℝ := ∫ r in (0 : ℝ)..1, ∫ s in (0 : ℝ)..1, dotF (co (S.G r s)) (S.normal r s) / 3

/-- The first moment of the cone over a sheet in direction `k`. -/
noncomputable def Sheet.moment (S : Sheet) (k : Fin 3) : ℝ :=
  ∫ r in (0 : ℝ)..1, ∫ s in (0 : ℝ)..1, co (S.G r s) k * dotF (co (S.G r s)) (S.normal r s) / 4

/-- The patch is the sheet, which has continuous partial derivatives. -/
structure IsSheet (F : Surf) (S : Sheet) : Prop where
  eq : ∀ r ∈ Set.Icc (0 : ℝ) 1, ∀ s ∈ Set.Icc (0 : ℝ) 1, F r s = .ok (S.G r s)
  smooth : SmoothOn S.G S.Gr S.Gs

end Spec

theorem surfaceArea_sum (m : TriMesh ℝ) : surfaceArea m = meshSum (fun _ _ _ n => lenF n / 2) m := rfl

theorem signedVolume_sum (m : TriMesh ℝ) : signedVolume m = meshSum (fun a _ _ n => dotF a n / 6) m := by
  unfold signedVolume meshSum
  congr 1
  refine List.map_congr_left fun t _ => ?_
  simp [det3, dotF, co, triArea2]
  ring

theorem firstMoment_sum (m : TriMesh ℝ) (k : Fin 3) : co (firstMoment m) k = meshSum (fun a b c n => dotF a n / 6 * ((a k + b k + c k) / 4)) m := by
  have h : ∀ t : Tri ℝ, det3 t.v0 t.v1 t.v2 = dotF (co t.v0) (triArea2 t) := by
    intro t
    simp [det3, dotF, co, triArea2]
    ring
  fin_cases k <;> simp [firstMoment, meshSum, co, h] <;> rfl

theorem dotF_cont {X : Type} [TopologicalSpace X] {f g : X → Fin 3 → ℝ} (hf : Continuous f) (hg : Continuous g) : Continuous fun x => dotF (f x) (g x) := by
  unfold dotF
  rw [continuous_pi_iff] at hf hg
  exact (((hf 0).mul (hg 0)).add ((hf 1).mul (hg 1))).add ((hf 2).mul (hg 2))

theorem areaQ : TriQuantity fun _ _ _ n => lenF n / 2 := by
  constructor
  · unfold lenF
    fun_prop
  · intro a b c n t ht
    have : lenF (t • n) = t * lenF n := by
      unfold lenF
      simp only [Pi.smul_apply, smul_eq_mul]
      rw [show (t * n 0) ^ 2 + (t * n 1) ^ 2 + (t * n 2) ^ 2 = t ^ 2 * (n 0 ^ 2 + n 1 ^ 2 + n 2 ^ 2) by ring, Real.sqrt_mul (by positivity), Real.sqrt_sq ht.le]
    rw [this]
    ring

theorem volumeQ : TriQuantity fun a _ _ n => dotF a n / 6 := by
  constructor
  · unfold dotF
    fun_prop
  · intro a b c n t _
    simp only [dotF, Pi.smul_apply, smul_eq_mul]
    ring

theorem momentQ (k : Fin 3) : TriQuantity fun a b c n => dotF a n / 6 * ((a k + b k + c k) / 4) := by
  constructor
  · unfold dotF
    fun_prop
  · intro a b c n t _
    simp only [dotF, Pi.smul_apply, smul_eq_mul]
    ring

/-- The mesh of a sheet. -/
theorem sheet_mesh {F : Surf} {S : Sheet} (h : IsSheet F S) (n : ℕ) (hn : 1 ≤ n) :
    surfceToStl F n n = .ok (gridMesh MeshArith.real false n n fun i j => S.G ((i : ℝ) / n) ((j : ℝ) / n)) := by
  unfold surfceToStl rList sList
  simp only [C40_uniform n hn, ok_bind]
  apply meshFromLists_eq
  intro i hi j hj
  rw [pointAt_ok]
  refine ⟨(i : ℝ) / n, (j : ℝ) / n, ?_, ?_, h.eq _ (frac_mem hn hi) _ (frac_mem hn hj)⟩
  · rw [List.getElem?_map, List.getElem?_range (by omega)]; rfl
  · rw [List.getElem?_map, List.getElem?_range (by omega)]; rfl

theorem sheet_limit {S : Sheet} (hS : SmoothOn S.G S.Gr S.Gs) :
    let m := fun n : ℕ => gridMesh MeshArith.real false n n fun i j => S.G ((i : ℝ) / n) ((j : ℝ) / n)
    Tendsto (fun n => surfaceArea (m n)) atTop (𝓝 S.area) ∧ Tendsto (fun n => signedVolume (m n)) atTop (𝓝 S.volume) ∧
      ∀ k, Tendsto (fun n => co (firstMoment (m n)) k) atTop (𝓝 (S.moment k)) := by
  intro m
  refine ⟨?_, ?_, fun k => ?_⟩
  · have := meshSum_limit hS areaQ
    simp only [surfaceArea_sum]
    unfold Sheet.area Sheet.normal
    convert this using 7
    ring
  · have := meshSum_limit hS volumeQ
    simp only [signedVolume_sum]
    unfold Sheet.volume Sheet.normal
    convert this using 7
    ring
  · have := meshSum_limit hS (momentQ k)
    simp only [firstMoment_sum]
    unfold Sheet.moment Sheet.normal
    convert this using 7
    ring

/-- C153: for a patch with continuous partial derivatives the surface area, the volume and the first moment of the mesh with `n × n` cells converge to
those of the surface. -/
theorem C153_patch (F : Surf) (S : Sheet) (h : IsSheet F S) : ∃ m : ℕ → TriMesh ℝ, (∀ n, 1 ≤ n → surfceToStl F n n = .ok (m n)) ∧
    Tendsto (fun n => surfaceArea (m n)) atTop (𝓝 S.area) ∧ Tendsto (fun n => signedVolume (m n)) atTop (𝓝 S.volume) ∧
    ∀ k, Tendsto (fun n => co (firstMoment (m n)) k) atTop (𝓝 (S.moment k)) :=
  ⟨_, fun n hn => sheet_mesh h n hn, sheet_limit h.smooth⟩

theorem forall₂_mesh {ps : List (String × Surf)} {Ss : List Sheet} (h : List.Forall₂ (fun e S => IsSheet e.2 S) ps Ss) (n : ℕ) (hn : 1 ≤ n) :
    MeshOf {} (fun _ => n) (fun _ => n) ps (Ss.map fun S => gridMesh MeshArith.real false n n fun i j => S.G ((i : ℝ) / n) ((j : ℝ) / n)).flatten := by
  refine ⟨_, ?_, rfl⟩
  rw [List.forall₂_map_right_iff]
  exact h.imp fun e S he => sheet_mesh he n hn

theorem sheets_limit {Ss : List Sheet} (h : ∀ S ∈ Ss, SmoothOn S.G S.Gr S.Gs) :
    let m := fun n : ℕ => (Ss.map fun S => gridMesh MeshArith.real false n n fun i j => S.G ((i : ℝ) / n) ((j : ℝ) / n)).flatten
    Tendsto (fun n => surfaceArea (m n)) atTop (𝓝 (Ss.map Sheet.area).sum) ∧ Tendsto (fun n => signedVolume (m n)) atTop (𝓝 (Ss.map Sheet.volume).sum) ∧
      ∀ k, Tendsto (fun n => co (firstMoment (m n)) k) atTop (𝓝 (Ss.map fun S => S.moment k).sum) := by
  intro m
  have key : ∀ (φ : (Fin 3 → ℝ) → (Fin 3 → ℝ) → (Fin 3 → ℝ) → (Fin 3 → ℝ) → ℝ) (lim : Sheet → ℝ),
      (∀ S ∈ Ss, Tendsto (fun n : ℕ => meshSum φ (gridMesh MeshArith.real false n n fun i j => S.G ((i : ℝ) / n) ((j : ℝ) / n))) atTop (𝓝 (lim S))) →
      Tendsto (fun n => meshSum φ (m n)) atTop (𝓝 (Ss.map lim).sum) := by
    intro φ lim hl
    have : ∀ n, meshSum φ (m n) = (Ss.map fun S => meshSum φ (gridMesh MeshArith.real false n n fun i j => S.G ((i : ℝ) / n) ((j : ℝ) / n))).sum := by
      intro n
      simp only [m, meshSum_flatten, List.map_map, Function.comp_def]
    simp only [this]
    clear this m h
    induction Ss with
    | nil => simp
    | cons S Ss ih =>
      simp only [List.map_cons, List.sum_cons]
      exact (hl S (by simp)).add (ih fun S hS => hl S (by simp [hS]))
  refine ⟨?_, ?_, fun k => ?_⟩
  · simp only [surfaceArea_sum]
    refine key _ _ fun S hS => ?_
    have := (sheet_limit (h S hS)).1
    simpa only [surfaceArea_sum] using this
  · simp only [signedVolume_sum]
    refine key _ _ fun S hS => ?_
    have := (sheet_limit (h S hS)).2.1
    simpa only [signedVolume_sum] using this
  · simp only [firstMoment_sum]
    refine key _ _ fun S hS => ?_
    have := (sheet_limit (h S hS)).2.2 k
    simpa only [firstMoment_sum] using this

/-- C153: for a component whose patches have continuous partial derivatives, the surface area, the volume enclosed by the mesh and its first moment converge, as
`stl_resolution` grows, to those of the surface.  If the volume is not zero, so does the centre of gravity. -/
theorem C153_component (c : Comp) (Ss : List Sheet) (hm : c.mesh_ = none) (hs : c.surfaces = none) (hcl : c.clustering = {})
    (hk : (c.patches.map Prod.fst).Nodup) (hne : c.patches ≠ []) (h : List.Forall₂ (fun e S => IsSheet e.2 S) c.patches Ss) :
    ∃ M : ℕ → StlMesh, (∀ n, 1 ≤ n → ∃ c', ({ c with stl_resolution := .int n } : Comp).mesh = (.ok (M n), c')) ∧
      Tendsto (fun n => surfaceArea (M n).tris) atTop (𝓝 (Ss.map Sheet.area).sum) ∧ Tendsto (fun n => signedVolume (M n).tris) atTop (𝓝 (Ss.map Sheet.volume).sum) ∧
      (∀ k, Tendsto (fun n => co (firstMoment (M n).tris) k) atTop (𝓝 (Ss.map fun S => S.moment k).sum)) ∧
      ((Ss.map Sheet.volume).sum ≠ 0 → ∀ k, Tendsto (fun n => co (centroid (M n).tris) k) atTop (𝓝 ((Ss.map fun S => S.moment k).sum / (Ss.map Sheet.volume).sum))) := by
  have hmesh : ∀ n, ∃ M : StlMesh, 1 ≤ n → (∃ c', ({ c with stl_resolution := .int n } : Comp).mesh = (.ok M, c')) ∧
      M.tris = (Ss.map fun S => gridMesh MeshArith.real false n n fun i j => S.G ((i : ℝ) / n) ((j : ℝ) / n)).flatten := by
    intro n
    by_cases hn : 1 ≤ n
    · obtain ⟨M, c', h1, h2, -⟩ := (C52_mesh ({ c with stl_resolution := .int n } : Comp) n hn rfl hm hs hk hne).1 _ (by
        have := forall₂_mesh h n hn
        rw [← hcl] at this
        exact this)
      exact ⟨M, fun _ => ⟨⟨c', h1⟩, h2⟩⟩
    · exact ⟨⟨[], []⟩, fun h => absurd h hn⟩
  choose M hM using hmesh
  have hsm : ∀ S ∈ Ss, SmoothOn S.G S.Gr S.Gs := by
    clear hM M
    generalize c.patches = ps at h
    induction h with
    | nil => simp
    | cons he _ ih => exact List.forall_mem_cons.2 ⟨he.smooth, ih⟩
  obtain ⟨a1, a2, a3⟩ := sheets_limit hsm
  have ev : ∀ f : TriMesh ℝ → ℝ, (fun n => f (M n).tris) =ᶠ[atTop]
      fun n => f (Ss.map fun S => gridMesh MeshArith.real false n n fun i j => S.G ((i : ℝ) / n) ((j : ℝ) / n)).flatten := by
    intro f
    filter_upwards [eventually_ge_atTop 1] with n hn
    rw [(hM n hn).2]
  have b1 := a1.congr' (ev surfaceArea).symm
  have b2 := a2.congr' (ev signedVolume).symm
  have b3 := fun k => (a3 k).congr' (ev fun m => co (firstMoment m) k).symm
  refine ⟨M, fun n hn => (hM n hn).1, b1, b2, b3, fun h0 k => ?_⟩
  have := (b3 k).div b2 h0
  refine this.congr fun n => ?_
  fin_cases k <;> simp [centroid, co] <;> field_simp

/-! ## Coons patches -/

/-- A path that evaluates on `[0, 1]` to a curve with a continuous derivative. -/
structure Spec.SmoothCurve (p : PathObj) (f f' : ℝ → V) : Prop where
  call : ∀ t ∈ Set.Icc (0 : ℝ) 1, p.call t = .ok (f t)
  cont : ContinuousOn (fun t => co (f t)) (Set.Icc 0 1)
  cont' : ContinuousOn (fun t => co (f' t)) (Set.Icc 0 1)
  deriv : ∀ t ∈ Set.Ioo (0 : ℝ) 1, HasDerivAt (fun t => co (f t)) (co (f' t)) t

/-- The surface that blends four curves, and its partial derivatives. -/
def coonsSheet (N E S W N' E' S' W' : ℝ → V) (p00 p10 p11 p01 : V) : Sheet where
  G r s := S r * (1 - s) + N r * s + W s * (1 - r) + E s * r - (p00 * (1 - r) * (1 - s) + p01 * (1 - r) * s + p10 * r * (1 - s) + p11 * r * s)
  Gr r s := S' r * (1 - s) + N' r * s - W s + E s + (p00 * (1 - s) + p01 * s - p10 * (1 - s) - p11 * s)
  Gs r s := N r - S r + W' s * (1 - r) + E' s * r + (p00 * (1 - r) - p01 * (1 - r) + p10 * r - p11 * r)

theorem coonsSheet_smooth {n e s w : PathObj} {N E S W N' E' S' W' : ℝ → V} (hn : SmoothCurve n N N') (he : SmoothCurve e E E') (hs : SmoothCurve s S S')
    (hw : SmoothCurve w W W') (p00 p10 p11 p01 : V) :
    SmoothOn (coonsSheet N E S W N' E' S' W' p00 p10 p11 p01).G (coonsSheet N E S W N' E' S' W' p00 p10 p11 p01).Gr
      (coonsSheet N E S W N' E' S' W' p00 p10 p11 p01).Gs := by
  have l1 : ∀ {f : ℝ → V}, ContinuousOn (fun t => co (f t)) (Set.Icc 0 1) → ∀ k, ContinuousOn (fun q : ℝ × ℝ => co (f q.1) k) unitSq :=
    fun hf k => (continuousOn_pi.1 hf k).comp continuousOn_fst fun q hq => hq.1
  have l2 : ∀ {f : ℝ → V}, ContinuousOn (fun t => co (f t)) (Set.Icc 0 1) → ∀ k, ContinuousOn (fun q : ℝ × ℝ => co (f q.2) k) unitSq :=
    fun hf k => (continuousOn_pi.1 hf k).comp continuousOn_snd fun q hq => hq.2
  have eG : ∀ r t k, co ((coonsSheet N E S W N' E' S' W' p00 p10 p11 p01).G r t) k = co (S r) k * (1 - t) + co (N r) k * t + co (W t) k * (1 - r) +
      co (E t) k * r - (co p00 k * (1 - r) * (1 - t) + co p01 k * (1 - r) * t + co p10 k * r * (1 - t) + co p11 k * r * t) := by
    intro r t k
    fin_cases k <;> simp [coonsSheet, co]
  have eR : ∀ r t k, co ((coonsSheet N E S W N' E' S' W' p00 p10 p11 p01).Gr r t) k = co (S' r) k * (1 - t) + co (N' r) k * t - co (W t) k + co (E t) k +
      (co p00 k * (1 - t) + co p01 k * t - co p10 k * (1 - t) - co p11 k * t) := by
    intro r t k
    fin_cases k <;> simp [coonsSheet, co]
  have eS : ∀ r t k, co ((coonsSheet N E S W N' E' S' W' p00 p10 p11 p01).Gs r t) k = co (N r) k - co (S r) k + co (W' t) k * (1 - r) + co (E' t) k * r +
      (co p00 k * (1 - r) - co p01 k * (1 - r) + co p10 k * r - co p11 k * r) := by
    intro r t k
    fin_cases k <;> simp [coonsSheet, co]
  constructor
  · refine continuousOn_pi.2 fun k => ?_
    simp only [eG]
    exact (((((l1 hs.cont k).mul (by fun_prop)).add ((l1 hn.cont k).mul (by fun_prop))).add ((l2 hw.cont k).mul (by fun_prop))).add
      ((l2 he.cont k).mul (by fun_prop))).sub (by fun_prop)
  · refine continuousOn_pi.2 fun k => ?_
    simp only [eR]
    exact (((((l1 hs.cont' k).mul (by fun_prop)).add ((l1 hn.cont' k).mul (by fun_prop))).sub (l2 hw.cont k)).add (l2 he.cont k)).add (by fun_prop)
  · refine continuousOn_pi.2 fun k => ?_
    simp only [eS]
    exact ((((l1 hn.cont k).sub (l1 hs.cont k)).add ((l2 hw.cont' k).mul (by fun_prop))).add ((l2 he.cont' k).mul (by fun_prop))).add (by fun_prop)
  · intro r hr t ht
    rw [hasDerivAt_pi]
    intro k
    simp only [eG, eR]
    have a1 := hasDerivAt_pi.1 (hs.deriv r hr) k
    have a2 := hasDerivAt_pi.1 (hn.deriv r hr) k
    have i := hasDerivAt_id r
    have j := (hasDerivAt_id r).const_sub 1
    exact (((((a1.mul_const (1 - t)).add (a2.mul_const t)).add (j.const_mul (co (W t) k))).add (i.const_mul (co (E t) k))).sub
      (((((j.const_mul (co p00 k)).mul_const (1 - t)).add ((j.const_mul (co p01 k)).mul_const t)).add ((i.const_mul (co p10 k)).mul_const (1 - t))).add
        ((i.const_mul (co p11 k)).mul_const t))).congr_deriv (by ring)
  · intro r hr t ht
    rw [hasDerivAt_pi]
    intro k
    simp only [eG, eS]
    have a1 := hasDerivAt_pi.1 (hw.deriv t ht) k
    have a2 := hasDerivAt_pi.1 (he.deriv t ht) k
    have i := hasDerivAt_id t
    have j := (hasDerivAt_id t).const_sub 1
    exact (((((j.const_mul (co (S r) k)).add (i.const_mul (co (N r) k))).add (a1.mul_const (1 - r))).add (a2.mul_const r)).sub
      ((((j.const_mul (co p00 k * (1 - r))).add (i.const_mul (co p01 k * (1 - r)))).add (j.const_mul (co p10 k * r))).add
        (i.const_mul (co p11 k * r)))).congr_deriv (by ring)

/-- A Coons patch between curves with continuous derivatives has continuous partial derivatives, so `C153_patch` and `C153_component` apply to it. -/
theorem C153_coons {n e s w : PathObj} {N E S W N' E' S' W' : ℝ → V} (hn : SmoothCurve n N N') (he : SmoothCurve e E E') (hs : SmoothCurve s S S')
    (hw : SmoothCurve w W W') (F : Surf) (hF : CoonsPatch n e s w = .ok F) :
    IsSheet F (coonsSheet N E S W N' E' S' W' (S 0) (S 1) (N 1) (N 0)) := by
  refine ⟨?_, coonsSheet_smooth hn he hs hw _ _ _ _⟩
  intro r hr t ht
  have h0 : (0 : ℝ) ∈ Set.Icc (0 : ℝ) 1 := ⟨le_rfl, zero_le_one⟩
  have h1 : (1 : ℝ) ∈ Set.Icc (0 : ℝ) 1 := ⟨zero_le_one, le_rfl⟩
  obtain ⟨c, hc, hF⟩ := bind_ok.1 hF
  obtain rfl := pure_ok.1 hF
  have hc' := hc
  simp only [Coons.ofEdges, hs.call 0 h0, hs.call 1 h1, hn.call 0 h0, hn.call 1 h1, hw.call 0 h0, he.call 0 h0, hw.call 1 h1, he.call 1 h1, ok_bind] at hc'
  have : c = ⟨n, e, s, w, S 0, S 1, N 1, N 0, false, ⟨0, 0, 0⟩⟩ := by
    simp only [Bind.bind, Except.bind, Pure.pure, Except.pure, throw, throwThe, MonadExceptOf.throw] at hc'
    split_ifs at hc' <;> simp_all
  subst this
  simp only [Coons.call, hs.call r hr, hn.call r hr, hw.call t ht, he.call t ht, ok_bind]
  show Except.ok _ = Except.ok _
  congr 1
  ext <;> simp [Coons.blend, coonsSheet]

theorem line_smooth (a b : V) : SmoothCurve (Line a b) (fun t => lineAt a b t) (fun _ => b - a) := by
  have hd : ∀ t, HasDerivAt (fun t => co (lineAt a b t)) (co (b - a)) t := by
    intro t
    rw [hasDerivAt_pi]
    intro k
    have i := hasDerivAt_id t
    have j := (hasDerivAt_id t).const_sub 1
    fin_cases k
    · exact ((j.const_mul a.x).add (i.const_mul b.x)).congr_deriv (by simp [co]; ring)
    · exact ((j.const_mul a.y).add (i.const_mul b.y)).congr_deriv (by simp [co]; ring)
    · exact ((j.const_mul a.z).add (i.const_mul b.z)).congr_deriv (by simp [co]; ring)
  exact ⟨fun t _ => rfl, fun t _ => (hd t).continuousAt.continuousWithinAt, continuousOn_const, fun t _ => hd t⟩

/-- The hypotheses of `C153_component` are met by a component whose only patch is the saddle between four straight lines. -/
example : ∃ (c : Comp) (S : Sheet), c.mesh_ = none ∧ c.surfaces = none ∧ c.clustering = {} ∧ (c.patches.map Prod.fst).Nodup ∧ c.patches ≠ [] ∧
    List.Forall₂ (fun e S => IsSheet e.2 S) c.patches [S] := by
  obtain ⟨F, hF⟩ : ∃ F, CoonsPatch (Line ⟨0, 1, 0⟩ ⟨1, 1, 1⟩) (Line ⟨1, 0, 0⟩ ⟨1, 1, 1⟩) (Line ⟨0, 0, 0⟩ ⟨1, 0, 0⟩) (Line ⟨0, 0, 0⟩ ⟨0, 1, 0⟩) = .ok F :=
    coons_lines ⟨0, 1, 0⟩ ⟨1, 1, 1⟩ ⟨1, 0, 0⟩ ⟨1, 1, 1⟩ ⟨0, 0, 0⟩ ⟨1, 0, 0⟩ ⟨0, 0, 0⟩ ⟨0, 1, 0⟩ rfl rfl rfl rfl
  exact ⟨{ componenttype := "saddle", gen := .into fun _ => runSteps [], patches := [("p", F)] }, _, rfl, rfl, rfl, by simp, by simp,
    .cons (C153_coons (line_smooth _ _) (line_smooth _ _) (line_smooth _ _) (line_smooth _ _) F hF) .nil⟩

end HV
