import Verif.Props.Combined
import Verif.Lemmas.FiniteDiff

/-!
# C121: sensitivities approximate derivatives
-/

namespace HV
open Spec Sens

namespace Spec

/-- For the parameter values in `S` the vertices of the component run along the curves `X 0, ..., X (n - 1)`. -/
def VertexCurves (ctor : Ctor) (lib : Lib) (depth : ℕ) (kw : ℝ → Dict String Val) (c : String) (n : ℕ) (X : ℕ → ℝ → V)
    (S : Set ℝ) : Prop :=
  ∀ q ∈ S, ∀ M, Generates ctor lib depth (kw q) c M → vertexList M = (List.range n).map fun i => X i q

/-- A finite sensitivity, each coordinate of which misses that of `d` by at most `ε`. -/
def NearV (ε : ℝ) (s : Vec (Option ℝ)) (d : V) : Prop :=
  ∃ u : V, s = ⟨some u.x, some u.y, some u.z⟩ ∧ |u.x - d.x| ≤ ε ∧ |u.y - d.y| ≤ ε ∧ |u.z - d.z| ≤ ε

/-- `X'` is the derivative of the curve `X` at `q`. -/
def DerivV (X : ℝ → V) (X' : V) (q : ℝ) : Prop :=
  HasDerivAt (fun q => (X q).x) X'.x q ∧ HasDerivAt (fun q => (X q).y) X'.y q ∧ HasDerivAt (fun q => (X q).z) X'.z q

/-- Every vertex is reported in a row, and every row is about a vertex; the property `P i s` holds for the sensitivity reported for
vertex `i`. -/
def EachVertex (n : ℕ) (pos : ℕ → V) (P : ℕ → Vec (Option ℝ) → Prop) (rows : List SRow) : Prop :=
  (∀ r ∈ rows, r.ix < n ∧ r.pos = pos r.ix ∧ P r.ix r.sens) ∧ ∀ i < n, ∃ r ∈ rows, r.pos = pos i ∧ P i r.sens

end Spec

/-- The sensitivities of a study are difference quotients of the curves of the vertices. -/
theorem study_quotients {self self' : Study} {ctor : Ctor} {lib : Lib} {depth : ℕ} {run run' : Run} {l : List (String × ℝ)}
    {overrides : Dict String ParamVal} (hn : (l.map Prod.fst).Nodup) {p : ℝ} {write : Bool} {pre : Option String} {T : Tables}
    (h : dvdp self ctor lib depth run (numbers l) overrides p write pre = (.ok T, self', run'))
    (name : String) (v : ℝ) (he : (name, v) ∈ l) (hv : v ≠ 0) (hp : p ≠ 0) (c : String) (n : ℕ) (X : ℕ → ℝ → V) (S : Set ℝ)
    (hS : v ∈ S) (hS' : v * (1 + p / 100) ∈ S) (ha : VertexCurves ctor lib depth (kwWith run.store (numbers l) overrides name) c n X S)
    (hc : ∃ M, Generates ctor lib depth (kwGiven run.store (numbers l) overrides) c M) :
    ∃ rows, tableAt T name c = some rows ∧ EachVertex n (fun i => X i v) (fun i s =>
      s = ⟨some (((X i (v * (1 + p / 100))).x - (X i v).x) / (v * (1 + p / 100) - v)),
        some (((X i (v * (1 + p / 100))).y - (X i v).y) / (v * (1 + p / 100) - v)),
        some (((X i (v * (1 + p / 100))).z - (X i v).z) / (v * (1 + p / 100) - v))⟩) rows := by
  obtain ⟨M, hM⟩ := hc
  obtain ⟨M', rows, h1, h2, h3⟩ := (study_tables hn h).2 (name, v) he c M hM
  simp only at h1 h2 h3
  have e1 := ha v hS M (by rw [kwWith_given _ _ _ hn (name, v) he]; exact hM)
  have e2 := ha _ hS' M' h1
  obtain ⟨⟨hr1, hr2, hr3⟩, hr4⟩ := compare_rows (by rw [e1, e2]; simp) h3
  set w := v * (1 + p / 100) with hw
  have hd0 : w - v ≠ 0 := by
    rw [hw, (scaled_diff v p hv hp).1]
    exact (scaled_diff v p hv hp).2
  have hfull : ((vertexList M).zip (vertexList M')).map (fun p => (p.1, p.2 - p.1)) =
      (List.range n).map fun i => (X i v, X i w - X i v) := by
    rw [e1, e2, List.zip_map', List.map_map]
    rfl
  rw [hfull] at hr1 hr3
  have hq : ∀ i, quotV (X i w - X i v) (.num (w - v)) = ⟨some (((X i w).x - (X i v).x) / (w - v)), some (((X i w).y - (X i v).y) / (w - v)),
      some (((X i w).z - (X i v).z) / (w - v))⟩ := by
    intro i
    simp [quotV, quot, hd0]
  refine ⟨rows, h2, fun r hr => ?_, fun i hi => ?_⟩
  · have := (hr1 r hr).1
    rw [List.getElem?_map, Option.map_eq_some_iff] at this
    obtain ⟨i, hi, ei⟩ := this
    have hlt : r.ix < n := by
      by_contra hge
      rw [List.getElem?_eq_none (by simpa using Nat.le_of_not_lt hge)] at hi
      cases hi
    rw [List.getElem?_range hlt] at hi
    cases hi
    simp only [Prod.mk.injEq] at ei
    exact ⟨hlt, ei.1.symm, by rw [hr4 r hr, ← ei.2, hq]⟩
  · obtain ⟨r, hr, ei⟩ := hr3 (X i v, X i w - X i v) (List.mem_map.2 ⟨i, List.mem_range.2 hi, rfl⟩)
    simp only [Prod.mk.injEq] at ei
    exact ⟨r, hr, ei.1, by rw [hr4 r hr, ei.2, hq]⟩

theorem Spec.EachVertex.imp {n : ℕ} {pos : ℕ → V} {P Q : ℕ → Vec (Option ℝ) → Prop} {rows : List SRow} (h : EachVertex n pos P rows)
    (hi : ∀ i < n, ∀ s, P i s → Q i s) : EachVertex n pos Q rows :=
  ⟨fun r hr => ⟨(h.1 r hr).1, (h.1 r hr).2.1, hi _ (h.1 r hr).1 _ (h.1 r hr).2.2⟩, fun i hin => by
    obtain ⟨r, hr, h1, h2⟩ := h.2 i hin
    exact ⟨r, hr, h1, hi i hin _ h2⟩⟩

/-- C121: when the vertices run along curves whose derivatives have the Lipschitz constant `K` between the nominal and the perturbed
value of the parameter, every vertex is reported with sensitivities that miss the derivative by at most `K / 2` times the
perturbation of the parameter. -/
theorem C121_error {self self' : Study} {ctor : Ctor} {lib : Lib} {depth : ℕ} {run run' : Run} {l : List (String × ℝ)}
    {overrides : Dict String ParamVal} (hn : (l.map Prod.fst).Nodup) {p : ℝ} {write : Bool} {pre : Option String} {T : Tables}
    (h : dvdp self ctor lib depth run (numbers l) overrides p write pre = (.ok T, self', run'))
    (name : String) (v : ℝ) (he : (name, v) ∈ l) (hv : v ≠ 0) (hp : p ≠ 0) (c : String) (n : ℕ) (X X' : ℕ → ℝ → V) (K : ℝ)
    (ha : VertexCurves ctor lib depth (kwWith run.store (numbers l) overrides name) c n X (Set.uIcc v (v * (1 + p / 100))))
    (hd : ∀ i < n, ∀ q ∈ Set.uIcc v (v * (1 + p / 100)), DerivV (X i) (X' i q) q)
    (hK : ∀ i < n, ∀ q ∈ Set.uIcc v (v * (1 + p / 100)), |(X' i q).x - (X' i v).x| ≤ K * |q - v| ∧
      |(X' i q).y - (X' i v).y| ≤ K * |q - v| ∧ |(X' i q).z - (X' i v).z| ≤ K * |q - v|)
    (hc : ∃ M, Generates ctor lib depth (kwGiven run.store (numbers l) overrides) c M) :
    ∃ rows, tableAt T name c = some rows ∧
      EachVertex n (fun i => X i v) (fun i s => NearV (K / 2 * |v * (p / 100)|) s (X' i v)) rows := by
  obtain ⟨rows, h1, h2⟩ := study_quotients hn h name v he hv hp c n X _ Set.left_mem_uIcc Set.right_mem_uIcc ha hc
  refine ⟨rows, h1, h2.imp fun i hi s hs => ?_⟩
  have hw : v * (1 + p / 100) ≠ v := by
    intro hw
    have := (scaled_diff v p hv hp).2
    apply this
    rw [← (scaled_diff v p hv hp).1, hw, sub_self]
  have e : K / 2 * |v * (p / 100)| = K * |v * (1 + p / 100) - v| / 2 := by
    rw [show v * (1 + p / 100) - v = v * (p / 100) by ring]; ring
  rw [e]
  refine ⟨⟨_, _, _⟩, hs, ?_, ?_, ?_⟩
  · exact quotient_error (fun q => (X i q).x) (fun q => (X' i q).x) v _ K hw (fun q hq => (hd i hi q hq).1) fun q hq => (hK i hi q hq).1
  · exact quotient_error (fun q => (X i q).y) (fun q => (X' i q).y) v _ K hw (fun q hq => (hd i hi q hq).2.1) fun q hq => (hK i hi q hq).2.1
  · exact quotient_error (fun q => (X i q).z) (fun q => (X' i q).z) v _ K hw (fun q hq => (hd i hi q hq).2.2) fun q hq => (hK i hi q hq).2.2

theorem quotient_limits (n : ℕ) (f : ℕ → ℝ → ℝ) (d : ℕ → ℝ) (v : ℝ) (hf : ∀ i < n, HasDerivAt (f i) (d i) v) (ε : ℝ) (hε : 0 < ε) :
    ∃ δ > 0, ∀ i < n, ∀ w, w ≠ v → |w - v| < δ → |(f i w - f i v) / (w - v) - d i| < ε := by
  induction n with
  | zero => exact ⟨1, one_pos, fun i hi => absurd hi (Nat.not_lt_zero i)⟩
  | succ n ih =>
    obtain ⟨δ, hδ, h1⟩ := ih fun i hi => hf i (Nat.lt_succ_of_lt hi)
    obtain ⟨δ', hδ', h2⟩ := quotient_limit (f n) (d n) v (hf n (Nat.lt_succ_self n)) ε hε
    refine ⟨min δ δ', lt_min hδ hδ', fun i hi w hw hd => ?_⟩
    rcases Nat.lt_succ_iff_lt_or_eq.1 hi with hi | rfl
    · exact h1 i hi w hw (lt_of_lt_of_le hd (min_le_left _ _))
    · exact h2 w hw (lt_of_lt_of_le hd (min_le_right _ _))

/-- C121: as the perturbation goes to zero, the sensitivities of all vertices converge to the derivatives of the curves along which the
vertices run near the nominal value. -/
theorem C121_limit (ctor : Ctor) (lib : Lib) (depth : ℕ) (s : Store) (l : List (String × ℝ)) (overrides : Dict String ParamVal)
    (hn : (l.map Prod.fst).Nodup) (name : String) (v : ℝ) (he : (name, v) ∈ l) (hv : v ≠ 0) (c : String) (n : ℕ) (X : ℕ → ℝ → V)
    (X' : ℕ → V) (ρ : ℝ) (hρ : 0 < ρ)
    (ha : VertexCurves ctor lib depth (kwWith s (numbers l) overrides name) c n X (Metric.ball v ρ))
    (hd : ∀ i < n, DerivV (X i) (X' i) v) (hc : ∃ M, Generates ctor lib depth (kwGiven s (numbers l) overrides) c M)
    (ε : ℝ) (hε : 0 < ε) :
    ∃ δ > 0, ∀ p, p ≠ 0 → |p| < δ → ∀ (self self' : Study) (run run' : Run) (write : Bool) (pre : Option String) (T : Tables),
      run.store = s → dvdp self ctor lib depth run (numbers l) overrides p write pre = (.ok T, self', run') →
      ∃ rows, tableAt T name c = some rows ∧ EachVertex n (fun i => X i v) (fun i s => NearV ε s (X' i)) rows := by
  obtain ⟨δ1, h1, g1⟩ := quotient_limits n (fun i q => (X i q).x) (fun i => (X' i).x) v (fun i hi => (hd i hi).1) ε hε
  obtain ⟨δ2, h2, g2⟩ := quotient_limits n (fun i q => (X i q).y) (fun i => (X' i).y) v (fun i hi => (hd i hi).2.1) ε hε
  obtain ⟨δ3, h3, g3⟩ := quotient_limits n (fun i q => (X i q).z) (fun i => (X' i).z) v (fun i hi => (hd i hi).2.2) ε hε
  set δ := min ρ (min δ1 (min δ2 δ3)) with hδ
  have hδ0 : 0 < δ := lt_min hρ (lt_min h1 (lt_min h2 h3))
  have hv' : 0 < |v| := abs_pos.2 hv
  refine ⟨100 * δ / |v|, by positivity, fun p hp hlt self self' run run' write pre T hs h => ?_⟩
  subst hs
  have hw : |v * (1 + p / 100) - v| < δ := by
    rw [show v * (1 + p / 100) - v = v * p / 100 by ring, abs_div, abs_mul, abs_of_pos (by norm_num : (0 : ℝ) < 100)]
    rw [lt_div_iff₀ hv'] at hlt
    linarith
  have hne : v * (1 + p / 100) ≠ v := by
    intro hw
    apply (scaled_diff v p hv hp).2
    rw [← (scaled_diff v p hv hp).1, hw, sub_self]
  obtain ⟨rows, r1, r2⟩ := study_quotients hn h name v he hv hp c n X _ (Metric.mem_ball_self hρ)
    (by rw [Metric.mem_ball, Real.dist_eq]; exact lt_of_lt_of_le hw (min_le_left _ _)) ha hc
  refine ⟨rows, r1, r2.imp fun i hi s hs => ⟨⟨_, _, _⟩, hs, ?_, ?_, ?_⟩⟩
  · exact (g1 i hi _ hne (lt_of_lt_of_le hw (by simp [hδ]))).le
  · exact (g2 i hi _ hne (lt_of_lt_of_le hw (by simp [hδ]))).le
  · exact (g3 i hi _ hne (lt_of_lt_of_le hw (by simp [hδ]))).le

/-- A triangle with one vertex at the square of a parameter. -/
def parabola (kw : Dict String Val) : TriMesh ℝ := [⟨⟨0, 0, 0⟩, ⟨argNum kw "a" * argNum kw "a", 0, 0⟩, ⟨0, 1, 0⟩⟩]

/-- The hypotheses of `C121_error` and `C121_limit` hold for a study of this triangle at `a = 3`, with the derivative `6` and `K = 2`:
the vertex does not move linearly. -/
example (lib : Lib) (p : ℝ) : ∃ T self' run',
    dvdp {} (meshCtor parabola) lib 1 { store := fun _ => [] } (numbers [("a", 3)]) [] p false none = (.ok T, self', run') ∧
    ∃ (X : ℕ → ℝ → V) (X' : ℕ → ℝ → V),
      VertexCurves (meshCtor parabola) lib 1 (kwWith (fun _ => []) (numbers [("a", 3)]) [] "a") "body" 3 X Set.univ ∧
      (∀ i < 3, ∀ q, DerivV (X i) (X' i q) q) ∧ (X' 1 3) = ⟨6, 0, 0⟩ ∧
      (∀ i < 3, ∀ q, |(X' i q).x - (X' i 3).x| ≤ 2 * |q - 3| ∧ |(X' i q).y - (X' i 3).y| ≤ 2 * |q - 3| ∧
        |(X' i q).z - (X' i 3).z| ≤ 2 * |q - 3|) ∧
      ∃ M, Generates (meshCtor parabola) lib 1 (kwGiven (fun _ => []) (numbers [("a", 3)]) []) "body" M := by
  obtain ⟨T, self', run', h⟩ := meshCtor_study parabola 0 (fun _ => rfl) lib [("a", 3)] (by simp) (by simp) p fun _ => []
  refine ⟨T, self', run', h, fun i q => [⟨0, 0, 0⟩, ⟨q * q, 0, 0⟩, ⟨0, 1, 0⟩].getD i ⟨0, 0, 0⟩,
    fun i q => [⟨0, 0, 0⟩, ⟨2 * q, 0, 0⟩, ⟨0, 0, 0⟩].getD i ⟨0, 0, 0⟩, ?_, ?_, ?_, ?_, _,
    (meshCtor_mesh parabola (fun _ => by simp [parabola]) lib 1 _ _).2 rfl⟩
  · intro q _ M hM
    rw [meshCtor_mesh parabola (fun _ => by simp [parabola])] at hM
    subst hM
    have : List.range 3 = [0, 1, 2] := rfl
    rw [this]
    simp [vertexList, StlMesh.ofTris, parabola, argNum, Dict.get?, kwWith, numbers]
  · intro i hi q
    have hsq : HasDerivAt (fun q : ℝ => q * q) (2 * q) q := by
      have := (hasDerivAt_id' q).mul (hasDerivAt_id' q)
      rw [one_mul, mul_one, ← two_mul] at this
      exact this
    match i, hi with
    | 0, _ => exact ⟨hasDerivAt_const _ _, hasDerivAt_const _ _, hasDerivAt_const _ _⟩
    | 1, _ => exact ⟨hsq, hasDerivAt_const _ _, hasDerivAt_const _ _⟩
    | 2, _ => exact ⟨hasDerivAt_const _ _, hasDerivAt_const _ _, hasDerivAt_const _ _⟩
  · simp; norm_num
  · intro i hi q
    match i, hi with
    | 0, _ => simp
    | 1, _ =>
      refine ⟨?_, by simp, by simp⟩
      show |2 * q - 2 * 3| ≤ _
      rw [← mul_sub, abs_mul]
      simp
    | 2, _ => simp

end HV
