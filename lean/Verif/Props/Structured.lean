import Verif.Model.Structured
import Verif.Props.Roberts

/-!
# C138: structured grids
-/

namespace HV
namespace Spec

/-- A surface that accepts arrays of parameters and is the surface `f` entry by entry. -/
def TakesArrays (F : ArrSurf) (f : ℝ → ℝ → V) : Prop :=
  ∀ r s : Arr, r.n = s.n → r.m = s.m → ∃ v, F r s = .ok v ∧ (v.x.n = r.n ∧ v.x.m = r.m) ∧ (v.y.n = r.n ∧ v.y.m = r.m) ∧
    (v.z.n = r.n ∧ v.z.m = r.m) ∧
    ∀ i < r.n, ∀ j < r.m, (⟨v.x.at_ i j, v.y.at_ i j, v.z.at_ i j⟩ : V) = f (r.at_ i j) (s.at_ i j)

/-- A cluster function that distributes points over `[0,1]` by the function `g`, entry by entry. -/
def Distributes (c : CfArg) (g : ℝ → ℝ) : Prop :=
  (∀ a : Arr, ∃ b, c.fn a = .ok b ∧ b.n = a.n ∧ b.m = a.m ∧ ∀ i j, b.at_ i j = g (a.at_ i j)) ∧
  g 0 = 0 ∧ g 1 = 1 ∧ StrictMonoOn g (Set.Icc 0 1)

/-- The vertices `p` of an `n × m` grid on the surface `f` whose points are distributed by `gN`, `gE`, `gS`, `gW` along the
edges: there are parameters `u`, `v` for each vertex such that the vertex is the surface point, the parameters lie in the unit
square, strictly increase along the grid lines, and follow the function of each edge there. -/
def Samples (n m : ℕ) (f : ℝ → ℝ → V) (gN gE gS gW : ℝ → ℝ) (p : ℕ → ℕ → V) : Prop :=
  ∃ u v : ℕ → ℕ → ℝ,
    (∀ i < n, ∀ j < m, p i j = f (u i j) (v i j) ∧ 0 ≤ u i j ∧ u i j ≤ 1 ∧ 0 ≤ v i j ∧ v i j ≤ 1) ∧
    (∀ i i' j, i < i' → i' < n → j < m → u i j < u i' j) ∧ (∀ i j j', i < n → j < j' → j' < m → v i j < v i j') ∧
    (∀ i < n, u i 0 = gS (i / (n - 1)) ∧ v i 0 = 0 ∧ u i (m - 1) = gN (i / (n - 1)) ∧ v i (m - 1) = 1) ∧
    (∀ j < m, u 0 j = 0 ∧ v 0 j = gW (j / (m - 1)) ∧ u (n - 1) j = 1 ∧ v (n - 1) j = gE (j / (m - 1)))

end Spec

open Spec

namespace StructGrid

/-- Blending two distributions keeps them in `[0,1]`. -/
theorem blend_mem {g h : ℝ → ℝ} (g0 : g 0 = 0) (g1 : g 1 = 1) (gm : StrictMonoOn g (Set.Icc 0 1)) (h0 : h 0 = 0) (h1 : h 1 = 1)
    (hm : StrictMonoOn h (Set.Icc 0 1)) {x y : ℝ} (hx : x ∈ Set.Icc (0 : ℝ) 1) (hy : y ∈ Set.Icc (0 : ℝ) 1) :
    0 ≤ (1 - y) * g x + y * h x ∧ (1 - y) * g x + y * h x ≤ 1 := by
  have z : (0 : ℝ) ∈ Set.Icc (0 : ℝ) 1 := by simp
  have o : (1 : ℝ) ∈ Set.Icc (0 : ℝ) 1 := by simp
  have a0 : 0 ≤ g x := by rw [← g0]; exact gm.monotoneOn z hx hx.1
  have a1 : g x ≤ 1 := by rw [← g1]; exact gm.monotoneOn hx o hx.2
  have b0 : 0 ≤ h x := by rw [← h0]; exact hm.monotoneOn z hx hx.1
  have b1 : h x ≤ 1 := by rw [← h1]; exact hm.monotoneOn hx o hx.2
  obtain ⟨y0, y1⟩ := hy
  have y1' : 0 ≤ 1 - y := by linarith
  constructor
  · have := mul_nonneg y1' a0
    have := mul_nonneg y0 b0
    linarith
  · have := mul_le_mul_of_nonneg_left a1 y1'
    have := mul_le_mul_of_nonneg_left b1 y0
    linarith

/-- Blending two distributions keeps them increasing. -/
theorem blend_lt {g h : ℝ → ℝ} (gm : StrictMonoOn g (Set.Icc 0 1)) (hm : StrictMonoOn h (Set.Icc 0 1)) {x x' y : ℝ}
    (hx : x ∈ Set.Icc (0 : ℝ) 1) (hx' : x' ∈ Set.Icc (0 : ℝ) 1) (hy : y ∈ Set.Icc (0 : ℝ) 1) (hlt : x < x') :
    (1 - y) * g x + y * h x < (1 - y) * g x' + y * h x' := by
  have a := gm hx hx' hlt
  have b := hm hx hx' hlt
  obtain ⟨y0, y1⟩ := hy
  rcases eq_or_lt_of_le y0 with e | y0
  · subst e; simpa using a
  · have := mul_lt_mul_of_pos_left b y0
    have := mul_le_mul_of_nonneg_left a.le (show (0 : ℝ) ≤ 1 - y by linarith)
    linarith

theorem frac_mem {n i : ℕ} (hn : 2 ≤ n) (hi : i < n) : (i : ℝ) / ((n : ℝ) - 1) ∈ Set.Icc (0 : ℝ) 1 := by
  have h2 : (2 : ℝ) ≤ n := by exact_mod_cast hn
  have hi' : (i : ℝ) + 1 ≤ n := by exact_mod_cast hi
  have hp : (0 : ℝ) < (n : ℝ) - 1 := by linarith
  exact ⟨by positivity, by rw [div_le_one hp]; linarith⟩

theorem frac_lt {n i i' : ℕ} (hn : 2 ≤ n) (h : i < i') : (i : ℝ) / ((n : ℝ) - 1) < (i' : ℝ) / ((n : ℝ) - 1) := by
  have h2 : (2 : ℝ) ≤ n := by exact_mod_cast hn
  have hp : (0 : ℝ) < (n : ℝ) - 1 := by linarith
  exact div_lt_div_of_pos_right (by exact_mod_cast h) hp

theorem frac_last {n : ℕ} (hn : 2 ≤ n) : ((n - 1 : ℕ) : ℝ) / ((n : ℝ) - 1) = 1 := by
  have h2 : (2 : ℝ) ≤ n := by exact_mod_cast hn
  rw [Nat.cast_sub (by omega), Nat.cast_one, div_self (by linarith)]

/-- C138 for surfaces that accept arrays: with at least two vertices along both directions the grid has the vertices of the surface
at parameters distributed by the cluster function of each edge along that edge, blended in between; it covers the surface from
corner to corner and its lines do not fold.  Missing: `CoonsPatch`, `subgrid` and the tags, see below. -/
theorem C138_partial (F : ArrSurf) (f : ℝ → ℝ → V) (hF : TakesArrays F f) (n m : ℕ) (hn : 2 ≤ n) (hm : 2 ≤ m) (cN cE cS cW : CfArg)
    (gN gE gS gW : ℝ → ℝ) (hN : Distributes cN gN) (hE : Distributes cE gE) (hS : Distributes cS gS) (hW : Distributes cW gW)
    (tags : Option (List String)) (label : String) :
    ∃ g, init (.parametric F) n m (some [cN, cE, cS, cW]) tags label = .ok g ∧ g.niv = n ∧ g.njv = m ∧ g.nkv = 1 ∧ g.dimensions = 2 ∧
      g.label = label ∧ Samples n m f gN gE gS gW fun i j => ⟨g.vertices.x.at_ i j, g.vertices.y.at_ i j, g.vertices.z.at_ i j⟩ := by
  obtain ⟨aN, eN, lN, kN, vN⟩ := hN.1 (uniform n m).1
  obtain ⟨aE, eE, lE, kE, vE⟩ := hE.1 (uniform n m).2
  obtain ⟨aS, eS, lS, kS, vS⟩ := hS.1 (uniform n m).1
  obtain ⟨aW, eW, lW, kW, vW⟩ := hW.1 (uniform n m).2
  set r := (uniform n m).1 with hr
  set s := (uniform n m).2 with hs
  obtain ⟨w, ew, -, -, -, hw⟩ := hF (((s.map (1 - ·)).zip (· * ·) aS).zip (· + ·) (s.zip (· * ·) aN))
    (((r.map (1 - ·)).zip (· * ·) aW).zip (· + ·) (r.zip (· * ·) aE)) rfl rfl
  have hn' : ¬ ((n : ℤ) < 2) := by omega
  have hm' : ¬ ((m : ℤ) < 2) := by omega
  refine ⟨⟨n, m, 1, 2, w, [tags.getD ["", "", "", ""]], label⟩, ?_, rfl, rfl, rfl, rfl, rfl, ?_⟩
  · simp only [init, generate, Option.getD_some, hn', hm', if_false, Int.toNat_natCast, ← hr, ← hs, eN, eE, eS, eW, bind, Except.bind,
      ew, pure, Except.pure]
  · obtain ⟨N0, N1, Nm⟩ := hN.2
    obtain ⟨E0, E1, Em⟩ := hE.2
    obtain ⟨S0, S1, Sm⟩ := hS.2
    obtain ⟨W0, W1, Wm⟩ := hW.2
    refine ⟨fun i j => (1 - (j : ℝ) / ((m : ℝ) - 1)) * gS (i / ((n : ℝ) - 1)) + (j : ℝ) / ((m : ℝ) - 1) * gN (i / ((n : ℝ) - 1)),
      fun i j => (1 - (i : ℝ) / ((n : ℝ) - 1)) * gW (j / ((m : ℝ) - 1)) + (i : ℝ) / ((n : ℝ) - 1) * gE (j / ((m : ℝ) - 1)), ?_, ?_, ?_, ?_, ?_⟩
    · intro i hi j hj
      have hx := frac_mem hn hi
      have hy := frac_mem hm hj
      obtain ⟨a, b⟩ := blend_mem S0 S1 Sm N0 N1 Nm hx hy
      obtain ⟨c, d⟩ := blend_mem W0 W1 Wm E0 E1 Em hy hx
      refine ⟨?_, a, b, c, d⟩
      have := hw i hi j hj
      simp only [Arr.zip, Arr.map, vN, vE, vS, vW, hr, hs, uniform] at this
      exact this
    · intro i i' j hii hi' hj
      exact blend_lt Sm Nm (frac_mem hn (hii.trans hi')) (frac_mem hn hi') (frac_mem hm hj) (frac_lt hn hii)
    · intro i j j' hi hjj hj'
      exact blend_lt Wm Em (frac_mem hm (hjj.trans hj')) (frac_mem hm hj') (frac_mem hn hi) (frac_lt hm hjj)
    · intro i hi
      simp only [Nat.cast_zero, zero_div, frac_last hm, W0, E0, W1, E1]
      refine ⟨by ring, by ring, by ring, by ring⟩
    · intro j hj
      simp only [Nat.cast_zero, zero_div, frac_last hn, S0, N0, S1, N1]
      refine ⟨by ring, by ring, by ring, by ring⟩

/-- C138: grids with fewer than two vertices in a direction, and grids of anything but a surface, are refused. -/
theorem C138_refuses (surface : SurfArg) (niv njv : ℤ) (cfs : Option (List CfArg)) (tags : Option (List String)) (label : String)
    (h : niv < 2 ∨ njv < 2 ∨ surface = .other) : init surface niv njv cfs tags label = .error .exc := by
  unfold init generate
  rcases surface with F | _
  · rcases h with h | h | h
    · simp [h, bind, Except.bind]
    · by_cases h' : niv < 2 <;> simp [h, h', bind, Except.bind]
    · cases h
  · rfl

/-- C138: without cluster functions, and with anything that is not one, the points are distributed uniformly. -/
theorem C138_uniform : Distributes .other id ∧ Distributes .linear id ∧
    ∀ surface niv njv tags label, init surface niv njv none tags label = init surface niv njv (some [.other, .other, .other, .other]) tags label := by
  have hid : StrictMonoOn (id : ℝ → ℝ) (Set.Icc 0 1) := fun a _ b _ h => h
  refine ⟨⟨fun a => ⟨a, rfl, rfl, rfl, fun _ _ => rfl⟩, rfl, rfl, hid⟩, ⟨fun a => ⟨a, rfl, rfl, rfl, fun _ _ => rfl⟩, rfl, rfl, hid⟩, ?_⟩
  intro surface niv njv tags label
  rfl

/-- C138: the Roberts functions distribute points as required, for every `beta > 1` and all flags. -/
theorem C138_roberts (β : ℝ) (h : 1 < β) (end0 end1 : Bool) :
    ∃ g : ℝ → ℝ, (∀ x, RobertsFunction.call end0 end1 β x = .ok (g x)) ∧ Distributes (.elementwise g) g := by
  obtain ⟨g, hg, g0, g1, gm, -⟩ := C18_roberts β h end0 end1
  exact ⟨g, hg, fun a => ⟨a.map g, rfl, rfl, rfl, fun _ _ => rfl⟩, g0, g1, gm.strictMonoOn _⟩

theorem vec3OfArrays_error (x y z : Arr) : vec3OfArrays x y z = .error .value := rfl

theorem bind_error {α β : Type} {x : Res α} {f : α → Res β} (h : ∀ a, ∃ e, f a = .error e) : ∃ e, (x >>= f) = .error e := by
  rcases x with e | a
  · exact ⟨e, rfl⟩
  · exact h a

/-- Every Coons patch raises if called with arrays: whatever its edges do with arrays, its corners are vectors, and a vector cannot
be multiplied by an array. -/
theorem coonsArr_raises (south north west east : ArrPath) (p00 p10 p11 p01 offset : V) (r s : Arr) :
    ∃ e, coonsArr south north west east p00 p10 p11 p01 offset r s = .error e := by
  unfold coonsArr
  refine bind_error fun _ => bind_error fun _ => bind_error fun _ => bind_error fun _ => ?_
  exact ⟨.value, rfl⟩

/-- C138 is violated by every Coons patch, the surface the package offers for patches between four edges: no grid of it, with any
number of vertices and any cluster functions, can be made. -/
theorem C138_coons_violated (south north west east : ArrPath) (p00 p10 p11 p01 offset : V) (niv njv : ℤ) (cfs : Option (List CfArg))
    (tags : Option (List String)) (label : String) :
    ∃ e, init (.parametric (coonsArr south north west east p00 p10 p11 p01 offset)) niv njv cfs tags label = .error e := by
  unfold init
  suffices ∃ e, generate (.parametric (coonsArr south north west east p00 p10 p11 p01 offset)) niv njv
      (cfs.getD [.other, .other, .other, .other]) = .error e by
    obtain ⟨e, he⟩ := this
    exact ⟨e, by simp only [he, bind, Except.bind]⟩
  unfold generate
  simp only
  split_ifs with h1 h2
  · exact ⟨_, rfl⟩
  · exact ⟨_, rfl⟩
  · split
    · refine bind_error fun _ => bind_error fun _ => bind_error fun _ => bind_error fun _ => ?_
      exact coonsArr_raises _ _ _ _ _ _ _ _ _ _ _
    · exact ⟨_, rfl⟩

/-- C138 is violated: no part of a grid can be copied by `subgrid`. -/
theorem C138_subgrid_violated (g : StructGrid) (i0 j0 k0 niv njv nkv : ℤ) : ∃ e, g.subgrid i0 j0 k0 niv njv nkv = .error e := ⟨_, rfl⟩

/-- C138 is violated: the grid does not have the tags given, one per edge, but a single entry. -/
theorem C138_tags_violated (surface : SurfArg) (niv njv : ℤ) (cfs : Option (List CfArg)) (tags : List String) (label : String)
    (g : StructGrid) (h : init surface niv njv cfs (some tags) label = .ok g) : g.tags = [tags] ∧ (tags.length = 4 → g.tags.length ≠ tags.length) := by
  simp only [init] at h
  rcases hv : generate surface niv njv (cfs.getD [.other, .other, .other, .other]) with e | v <;> rw [hv] at h
  · cases h
  · have h := (Except.ok.inj h).symm
    subst h
    exact ⟨rfl, fun h4 => by rw [h4]; simp⟩

/-- A surface that accepts arrays: the unit square in the plane. -/
theorem square_takes : TakesArrays (fun r s => .ok ⟨r, s, r.map fun _ => 0⟩) (fun r s => ⟨r, s, 0⟩) := by
  intro r s h1 h2
  exact ⟨_, rfl, ⟨rfl, rfl⟩, ⟨h1.symm, h2.symm⟩, ⟨rfl, rfl⟩, fun i _ j _ => rfl⟩

/-- A 4 x 3 grid of it, clustered to the first end of the south edge. -/
example : ∃ (cS : CfArg) (gS : ℝ → ℝ) (g : StructGrid), init (.parametric fun r s => .ok ⟨r, s, r.map fun _ => 0⟩) 4 3
      (some [.other, .linear, cS, .other]) none "g" = .ok g ∧ g.niv = 4 ∧
      Samples 4 3 (fun r s => ⟨r, s, 0⟩) id id gS id fun i j => ⟨g.vertices.x.at_ i j, g.vertices.y.at_ i j, g.vertices.z.at_ i j⟩ := by
  obtain ⟨gS, -, hS⟩ := C138_roberts 1.05 (by norm_num) true false
  obtain ⟨g, hg, h1, -, -, -, -, h2⟩ := C138_partial _ _ square_takes 4 3 (by norm_num) (by norm_num) .other .linear _ .other _ _ _ _
    C138_uniform.1 C138_uniform.2.1 hS C138_uniform.1 none "g"
  exact ⟨_, gS, g, hg, h1, h2⟩

/-- A Coons patch between lines. -/
example : ∃ e, StructGrid.init (.parametric (coonsArr (lineArr ⟨0, 0, 0⟩ ⟨1, 0, 0⟩) (lineArr ⟨0, 1, 0⟩ ⟨1, 1, 0⟩) (lineArr ⟨0, 0, 0⟩ ⟨0, 1, 0⟩)
    (lineArr ⟨1, 0, 0⟩ ⟨1, 1, 0⟩) ⟨0, 0, 0⟩ ⟨1, 0, 0⟩ ⟨1, 1, 0⟩ ⟨0, 1, 0⟩ ⟨0, 0, 0⟩)) 3 3 = .error e :=
  C138_coons_violated _ _ _ _ _ _ _ _ _ _ _ _ _ _

end StructGrid
end HV
