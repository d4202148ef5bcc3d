import Verif.Model.Storage
import Verif.Props.Check
import Verif.Props.Motion
import Verif.Props.PolygonVolume
import Verif.Props.PassCheck

/-!
# C159: storing a mesh in single precision
-/

namespace HV
open Spec

/-! ## The mesh in storage is the rounded mesh -/

theorem mapM_map {α β γ : Type} (f : α → Res β) (f' : α → Res γ) (g : β → γ) (h : ∀ a, f' a = (f a).map g) (l : List α) :
    l.mapM f' = (l.mapM f).map (List.map g) := by
  induction l with
  | nil => rfl
  | cons a l ih =>
    rw [List.mapM_cons, List.mapM_cons, h a, ih]
    cases f a with
    | error e => rfl
    | ok b =>
      cases l.mapM f with
      | error e => rfl
      | ok bs => rfl

theorem cellAt_stored (ρ : ℝ → ℝ) (mirror : Bool) (surf : Surf) (r s : List ℝ) (i j : ℕ) :
    cellAt (MeshArith.stored ρ) mirror surf r s i j = (cellAt MeshArith.real mirror surf r s i j).map (mapVerts (storeV ρ)) := by
  unfold cellAt
  simp only [Bind.bind, Except.bind]
  cases SweptPatch.getIdx r i with
  | error e => rfl
  | ok r0 =>
  cases SweptPatch.getIdx s j with
  | error e => rfl
  | ok s0 =>
  simp only
  cases surf r0 s0 with
  | error e => rfl
  | ok p00 =>
  simp only
  cases SweptPatch.getIdx r (i + 1) with
  | error e => rfl
  | ok r1 =>
  simp only
  cases surf r1 s0 with
  | error e => rfl
  | ok p10 =>
  simp only
  cases SweptPatch.getIdx s (j + 1) with
  | error e => rfl
  | ok s1 =>
  simp only
  cases surf r0 s1 with
  | error e => rfl
  | ok p01 =>
  simp only
  cases surf r1 s1 with
  | error e => rfl
  | ok p11 => rfl

theorem meshFromLists_stored (ρ : ℝ → ℝ) (mirror : Bool) (surf : Surf) (ni nj : ℕ) (r s : List ℝ) :
    meshFromLists (MeshArith.stored ρ) mirror surf ni nj r s =
      (meshFromLists MeshArith.real mirror surf ni nj r s).map (mapVerts (storeV ρ)) := by
  unfold meshFromLists
  rw [mapM_map (fun i => (List.range nj).mapM fun j => cellAt MeshArith.real mirror surf r s i j) _ (List.map (mapVerts (storeV ρ)))
    (fun i => mapM_map _ _ _ (fun j => cellAt_stored ρ mirror surf r s i j) _)]
  cases (List.range ni).mapM fun i => (List.range nj).mapM fun j => cellAt MeshArith.real mirror surf r s i j with
  | error e => rfl
  | ok rows =>
    show Except.ok _ = Except.ok _
    congr 1
    unfold mapVerts
    simp only [List.map_map, List.map_flatten, Function.comp_def]

theorem surfceToStl_stored (ρ : ℝ → ℝ) (surf : Surf) (ni nj : ℕ) (o : MeshOpts) :
    surfceToStlStored ρ surf ni nj o = (surfceToStl surf ni nj o).map (mapVerts (storeV ρ)) := by
  unfold surfceToStlStored surfceToStl
  cases rList o ni with
  | error e => rfl
  | ok r =>
  cases sList o ni nj with
  | error e => rfl
  | ok s => exact meshFromLists_stored ρ _ surf ni nj r s

theorem Dict_set_map {κ ν μ : Type} [DecidableEq κ] (g : ν → μ) (d : Dict κ ν) (k : κ) (v : ν) :
    (Dict.set d k v).map (fun e => (e.1, g e.2)) = Dict.set (d.map fun e => (e.1, g e.2)) k (g v) := by
  induction d with
  | nil => rfl
  | cons e d ih =>
    simp only [Dict.set, List.map_cons]
    split_ifs with h
    · simp
    · simp only [List.map_cons, ih]

theorem Dict_setAll_map {κ ν μ : Type} [DecidableEq κ] (g : ν → μ) (l : List (κ × ν)) (d : Dict κ ν) :
    (Dict.setAll d l).map (fun e => (e.1, g e.2)) = Dict.setAll (d.map fun e => (e.1, g e.2)) (l.map fun e => (e.1, g e.2)) := by
  unfold Dict.setAll
  induction l generalizing d with
  | nil => rfl
  | cons e l ih =>
    simp only [List.foldl_cons, List.map_cons]
    rw [ih, Dict_set_map]

theorem surfaceLoop_ok (o : MeshOpts) (cases_ : List (String × Surf × ℕ × ℕ)) (acc : Dict String (TriMesh ℝ))
    (h : (Comp.surfaceLoop o acc cases_).1 = .ok ()) :
    ∃ l, cases_.mapM (Comp.wrapper o) = .ok l ∧ (Comp.surfaceLoop o acc cases_).2 = Dict.setAll acc l := by
  induction cases_ generalizing acc with
  | nil => exact ⟨[], rfl, rfl⟩
  | cons k ks ih =>
    unfold Comp.surfaceLoop at h ⊢
    rw [List.mapM_cons]
    cases hw : Comp.wrapper o k with
    | error e => rw [hw] at h; simp at h
    | ok r =>
      rw [hw] at h
      obtain ⟨l, h1, h2⟩ := ih _ h
      exact ⟨r :: l, by rw [h1]; rfl, h2⟩

theorem wrapper_stored (ρ : ℝ → ℝ) (o : MeshOpts) (k : String × Surf × ℕ × ℕ) :
    Comp.wrapperStored ρ o k = (Comp.wrapper o k).map fun e => (e.1, mapVerts (storeV ρ) e.2) := by
  unfold Comp.wrapperStored Comp.wrapper
  rw [surfceToStl_stored]
  cases surfceToStl k.2.1 k.2.2.1 k.2.2.2 o with
  | error e => rfl
  | ok m => rfl

/-- C159: the mesh of a new component in storage is its exact mesh with every vertex rounded on its own, whatever the rounding:
the same vertices are rounded to the same vertices, in all patches. -/
theorem C159_storage (ρ : ℝ → ℝ) (c : Comp) (hm : c.mesh_ = none) (hs : c.surfaces = none) (M : StlMesh) (c' : Comp)
    (hM : c.mesh = (.ok M, c')) : c.meshStored ρ = .ok (mapVerts (storeV ρ) M.tris) := by
  have key : ∃ cases_ l, c.patches.length ≠ 0 ∧ c.patches.mapM (c.caseOf c.stl_resolution) = .ok cases_ ∧
      cases_.mapM (Comp.wrapper c.clustering) = .ok l ∧ M.tris = ((Dict.setAll [] l).map Prod.snd).flatten := by
    unfold Comp.mesh Comp.buildMesh at hM
    simp only [hm, hs] at hM
    unfold Comp.surface at hM
    simp only [Option.getD_none] at hM
    split_ifs at hM with hp
    · simp at hM
    have comb : ∀ (d : Dict String (TriMesh ℝ)) (c1 : Comp), c1.surfaces = some d → c1.combine = (.ok M, c') →
        M.tris = (d.map Prod.snd).flatten := by
      intro d c1 hd hr'
      cases d with
      | nil => simp [Comp.combine, hd] at hr'
      | cons e d =>
        simp only [Comp.combine, hd, Prod.mk.injEq, Except.ok.injEq] at hr'
        rw [← hr'.1]
        rfl
    cases hc : c.patches.mapM (c.caseOf c.stl_resolution) with
    | error e => rw [hc] at hM; simp at hM
    | ok cases_ =>
      rw [hc] at hM
      simp only [Comp.surfaceCases] at hM
      cases hmp : c.multiprocess with
      | true =>
        rw [hmp] at hM
        simp only [if_true] at hM
        cases hw : cases_.mapM (Comp.wrapper c.clustering) with
        | error e => rw [hw] at hM; simp at hM
        | ok l =>
          rw [hw] at hM
          simp only at hM
          exact ⟨cases_, l, hp, rfl, hw, comb _ _ rfl hM⟩
      | false =>
        rw [hmp] at hM
        simp only [Bool.false_eq_true, if_false] at hM
        cases hw : (Comp.surfaceLoop c.clustering [] cases_).1 with
        | error e => rw [hw] at hM; simp at hM
        | ok u =>
          obtain ⟨l, h1, h2⟩ := surfaceLoop_ok _ _ _ hw
          rw [hw, h2] at hM
          simp only at hM
          exact ⟨cases_, l, hp, rfl, h1, comb _ _ rfl hM⟩
  obtain ⟨cases_, l, h0, h1, h2, h3⟩ := key
  unfold Comp.meshStored
  rw [if_neg h0, h1, ok_bind, mapM_map _ _ _ (wrapper_stored ρ c.clustering), h2, h3]
  show Except.ok _ = Except.ok _
  congr 1
  have := Dict_setAll_map (mapVerts (storeV ρ)) l []
  rw [List.map_nil] at this
  rw [← this, List.map_map]
  unfold mapVerts
  simp only [List.map_flatten, List.map_map, Function.comp_def]

/-! ## Rounding to 24 binary digits -/

/-- The error of storing is at most half a unit in the last place. -/
theorem C159_f32 (x : ℝ) : |f32 x - x| ≤ |x| / 2 ^ 24 := by
  unfold f32
  split_ifs with h
  · simp [h]
  have hx : 0 < |x| := abs_pos.2 h
  have hp : (0 : ℝ) < 2 ^ (Int.log 2 |x| - 23) := by positivity
  generalize hg : (2 : ℝ) ^ (Int.log 2 |x| - 23) = g at hp ⊢
  have hl : g * 2 ^ 23 ≤ |x| := by
    rw [← hg, zpow_sub₀ (by norm_num)]
    have := Int.zpow_log_le_self (b := 2) (by norm_num) hx
    calc (2 : ℝ) ^ Int.log 2 |x| / 2 ^ (23 : ℤ) * 2 ^ 23 = 2 ^ Int.log 2 |x| := by norm_num
      _ ≤ |x| := by exact_mod_cast this
  have hr := abs_sub_round (x / g)
  have e : (round (x / g) : ℝ) * g - x = -((x / g - round (x / g)) * g) := by field_simp; ring
  rw [e, abs_neg, abs_mul, abs_of_pos hp]
  have : |x / g - round (x / g)| * g ≤ 1 / 2 * g := mul_le_mul_of_nonneg_right hr hp.le
  rw [le_div_iff₀ (by positivity)]
  nlinarith

/-! ## Closedness -/

/-- C159: a closed mesh stays closed in storage, whatever the rounding. -/
theorem C159_closed (ρ : ℝ → ℝ) (c : Comp) (hm : c.mesh_ = none) (hs : c.surfaces = none) (M : StlMesh) (c' : Comp)
    (hM : c.mesh = (.ok M, c')) (hc : Closed M.tris) : ∃ m, c.meshStored ρ = .ok m ∧ Closed m :=
  ⟨_, C159_storage ρ c hm hs M c' hM, closed_mapVerts _ _ hc⟩

/-! ## Volume and area -/

/-- All coordinates of all vertices are at most `B` in absolute value. -/
def Spec.CoordsWithin (B : ℝ) (m : TriMesh ℝ) : Prop :=
  ∀ t ∈ m, ∀ v ∈ [t.v0, t.v1, t.v2], |v.x| ≤ B ∧ |v.y| ≤ B ∧ |v.z| ≤ B

theorem prod3_err (B d a b c a' b' c' : ℝ) (hd : 0 ≤ d) (ha : |a| ≤ B) (hb : |b| ≤ B) (hc : |c| ≤ B) (ha' : |a' - a| ≤ d)
    (hb' : |b' - b| ≤ d) (hc' : |c' - c| ≤ d) : |a' * b' * c' - a * b * c| ≤ 3 * d * (B + d) ^ 2 := by
  have hB : 0 ≤ B := (abs_nonneg _).trans ha
  have h2 : |b'| ≤ B + d := by have := abs_sub_abs_le_abs_sub b' b; linarith
  have h3 : |c'| ≤ B + d := by have := abs_sub_abs_le_abs_sub c' c; linarith
  have e : a' * b' * c' - a * b * c = (a' - a) * (b' * c') + a * ((b' - b) * c') + a * (b * (c' - c)) := by ring
  rw [e]
  refine (abs_add_le _ _).trans ?_
  refine (add_le_add_left (abs_add_le _ _) _).trans ?_
  simp only [abs_mul]
  have i1 : |a' - a| * (|b'| * |c'|) ≤ d * ((B + d) * (B + d)) :=
    mul_le_mul ha' (mul_le_mul h2 h3 (abs_nonneg _) (by linarith)) (by positivity) hd
  have i2 : |a| * (|b' - b| * |c'|) ≤ (B + d) * (d * (B + d)) :=
    mul_le_mul (ha.trans (by linarith)) (mul_le_mul hb' h3 (abs_nonneg _) hd) (by positivity) (by linarith)
  have i3 : |a| * (|b| * |c' - c|) ≤ (B + d) * ((B + d) * d) :=
    mul_le_mul (ha.trans (by linarith)) (mul_le_mul (hb.trans (by linarith)) hc' (abs_nonneg _) (by linarith)) (by positivity) (by linarith)
  nlinarith

/-- The volume of the rounded mesh differs by at most `3 d (B + d)²` per triangle, for a rounding with errors of at most `d`. -/
theorem volume_stored (ρ : ℝ → ℝ) (B d : ℝ) (hd : 0 ≤ d) (hρ : ∀ x, |x| ≤ B → |ρ x - x| ≤ d) (m : TriMesh ℝ) (hB : CoordsWithin B m) :
    |signedVolume (mapVerts (storeV ρ) m) - signedVolume m| ≤ m.length * (3 * d * (B + d) ^ 2) := by
  unfold signedVolume mapVerts
  induction m with
  | nil => simp
  | cons t m ih =>
    have ht := hB t (by simp)
    have ih' := ih fun t' h' => hB t' (by simp [h'])
    simp only [List.map_cons, List.sum_cons, List.length_cons] at ih' ⊢
    push_cast
    have h0 := ht t.v0 (by simp)
    have h1 := ht t.v1 (by simp)
    have h2 := ht t.v2 (by simp)
    have cell : |det3 (storeV ρ t.v0) (storeV ρ t.v1) (storeV ρ t.v2) / 6 - det3 t.v0 t.v1 t.v2 / 6| ≤ 3 * d * (B + d) ^ 2 := by
      have P := fun a b c (ha : |a| ≤ B) (hb : |b| ≤ B) (hc : |c| ≤ B) =>
        abs_le.1 (prod3_err B d a b c (ρ a) (ρ b) (ρ c) hd ha hb hc (hρ a ha) (hρ b hb) (hρ c hc))
      obtain ⟨a1, a2⟩ := P t.v0.x t.v1.y t.v2.z h0.1 h1.2.1 h2.2.2
      obtain ⟨b1, b2⟩ := P t.v0.x t.v1.z t.v2.y h0.1 h1.2.2 h2.2.1
      obtain ⟨c1, c2⟩ := P t.v0.y t.v1.x t.v2.z h0.2.1 h1.1 h2.2.2
      obtain ⟨d1, d2⟩ := P t.v0.y t.v1.z t.v2.x h0.2.1 h1.2.2 h2.1
      obtain ⟨e1, e2⟩ := P t.v0.z t.v1.x t.v2.y h0.2.2 h1.1 h2.2.1
      obtain ⟨f1, f2⟩ := P t.v0.z t.v1.y t.v2.x h0.2.2 h1.2.1 h2.1
      generalize 3 * d * (B + d) ^ 2 = E at *
      simp only [det3, storeV]
      rw [abs_le]
      constructor <;> linarith
    have e : ∀ a b c d : ℝ, a + b - (c + d) = (a - c) + (b - d) := fun a b c d => by ring
    rw [e]
    refine (abs_add_le _ _).trans ?_
    linarith

/-- C159: the volume of a mesh with `N` triangles and coordinates of at most `B` changes by at most `4 N B³ / 2²⁴` when the
mesh is stored in single precision. -/
theorem C159_volume (c : Comp) (hm : c.mesh_ = none) (hs : c.surfaces = none) (M : StlMesh) (c' : Comp)
    (hM : c.mesh = (.ok M, c')) (B : ℝ) (hB0 : 0 ≤ B) (hB : CoordsWithin B M.tris) :
    ∃ m, c.meshStored f32 = .ok m ∧ |signedVolume m - signedVolume M.tris| ≤ M.tris.length * (4 * B ^ 3 / 2 ^ 24) := by
  refine ⟨_, C159_storage f32 c hm hs M c' hM, ?_⟩
  refine (volume_stored f32 B (B / 2 ^ 24) (by positivity) (fun x hx => (C159_f32 x).trans (by gcongr)) M.tris hB).trans ?_
  refine mul_le_mul_of_nonneg_left ?_ (by positivity)
  have : 3 * (B / 2 ^ 24) * (B + B / 2 ^ 24) ^ 2 = 3 * (1 + 1 / 2 ^ 24) ^ 2 * (B ^ 3 / 2 ^ 24) := by ring
  rw [this]
  have h3 : 0 ≤ B ^ 3 / 2 ^ 24 := by positivity
  calc 3 * (1 + 1 / 2 ^ 24) ^ 2 * (B ^ 3 / 2 ^ 24) ≤ 4 * (B ^ 3 / 2 ^ 24) := mul_le_mul_of_nonneg_right (by norm_num) h3
    _ = _ := by ring

/-! ## The check of the stored mesh -/

theorem edges_mapVerts {β γ : Type} (f : Vec β → Vec γ) (m : TriMesh β) : edges (mapVerts f m) = (edges m).map fun e => (f e.1, f e.2) := by
  unfold edges mapVerts
  induction m with
  | nil => rfl
  | cons t m ih =>
    rw [List.map_cons, List.flatMap_cons, List.flatMap_cons, ih, List.map_append]
    rfl

/-- C159: a mesh that passes the check of the edges still passes it in storage, provided that different ends of edges differ in
some coordinate by more than the fraction `2⁻²²` of the largest coordinate. -/
theorem C159_check_partial (eps : ℝ) (c : Comp) (hm : c.mesh_ = none) (hs : c.surfaces = none) (M : StlMesh) (c' : Comp)
    (hM : c.mesh = (.ok M, c')) (B : ℝ) (hB0 : 0 ≤ B) (hB : CoordsWithin B M.tris) (hw : Watertight M.tris)
    (hsep : ∀ e ∈ edges M.tris, ∀ f ∈ edges M.tris, e.1 ≠ f.1 →
      B / 2 ^ 22 < |e.1.x - f.1.x| ∨ B / 2 ^ 22 < |e.1.y - f.1.y| ∨ B / 2 ^ 22 < |e.1.z - f.1.z|) :
    ∃ m, c.meshStored f32 = .ok m ∧ stlCheck eps (StlMesh.ofTris m) false true = .ok true := by
  refine ⟨_, C159_storage f32 c hm hs M c' hM, ?_⟩
  obtain ⟨b, hb, hbi⟩ := C44_matching_lines eps (mapVerts (storeV f32) M.tris)
  rw [hb]
  congr 1
  rw [hbi, edges_mapVerts]
  have hco : ∀ e ∈ edges M.tris, |e.1.x| ≤ B ∧ |e.1.y| ≤ B ∧ |e.1.z| ≤ B := by
    intro e he
    obtain ⟨t, ht, he'⟩ := List.mem_flatMap.1 he
    simp only [triEdges, List.mem_cons, List.not_mem_nil, or_false] at he'
    rcases he' with rfl | rfl | rfl <;> exact hB t ht _ (by simp)
  have far : ∀ x y : ℝ, |x| ≤ B → |y| ≤ B → B / 2 ^ 22 < |x - y| → f32 x ≠ f32 y := by
    intro x y hx hy hxy h
    have e1 := (C159_f32 x).trans (show |x| / 2 ^ 24 ≤ B / 2 ^ 24 by gcongr)
    have e2 := (C159_f32 y).trans (show |y| / 2 ^ 24 ≤ B / 2 ^ 24 by gcongr)
    have e3 : x - y = -(f32 x - x) + (f32 y - y) := by rw [h]; ring
    rw [e3] at hxy
    have e4 := abs_add_le (-(f32 x - x)) (f32 y - y)
    rw [abs_neg] at e4
    have e5 : B / 2 ^ 22 = 4 * (B / 2 ^ 24) := by ring
    have : 0 ≤ B / 2 ^ 24 := by positivity
    rw [e5] at hxy
    linarith
  have inj : ∀ e ∈ edges M.tris, ∀ f ∈ edges M.tris, storeV f32 e.1 = storeV f32 f.1 → e.1 = f.1 := by
    intro e he f hf h
    by_contra hne
    have ce := hco e he
    have cf := hco f hf
    rcases hsep e he f hf hne with h1 | h1 | h1
    · exact far _ _ ce.1 cf.1 h1 (congrArg Vec.x h)
    · exact far _ _ ce.2.1 cf.2.1 h1 (congrArg Vec.y h)
    · exact far _ _ ce.2.2 cf.2.2 h1 (congrArg Vec.z h)
  have inj2 : ∀ e ∈ edges M.tris, ∀ f ∈ edges M.tris, storeV f32 e.2 = storeV f32 f.2 → e.2 = f.2 :=
    fun e he f hf h => inj _ (hw.2 e he).2 _ (hw.2 f hf).2 h
  refine ⟨?_, ?_⟩
  · refine (List.nodup_map_iff_inj_on hw.1).2 ?_
    intro e he f hf h
    rw [Prod.mk.injEq] at h
    exact Prod.ext (inj e he f hf h.1) (inj2 e he f hf h.2)
  · intro e he
    obtain ⟨f, hf, rfl⟩ := List.mem_map.1 he
    refine ⟨fun h => (hw.2 f hf).1 ?_, List.mem_map.2 ⟨_, (hw.2 f hf).2, rfl⟩⟩
    exact inj f hf _ (hw.2 f hf).2 h

theorem round_near (y : ℝ) (z : ℤ) (h : |y - z| < 1 / 2) : round y = z := by
  rw [round_eq, Int.floor_eq_iff]
  obtain ⟨h1, h2⟩ := abs_lt.1 h
  constructor <;> linarith

/-- Numbers close to a power of two are rounded to it. -/
theorem f32_power (k : ℕ) (x : ℝ) (h : |x - 2 ^ k| < 2 ^ k / 2 ^ 26) : f32 x = 2 ^ k := by
  have hk : (0 : ℝ) < 2 ^ k := by positivity
  obtain ⟨h1, h2⟩ := abs_lt.1 h
  have hx : 0 < x := by
    have : (2 : ℝ) ^ k / 2 ^ 26 ≤ 2 ^ k := div_le_self hk.le (by norm_num)
    linarith
  have key : ∀ e d : ℤ, Int.log 2 |x| = e → (2 : ℝ) ^ (e - 23) * d = 2 ^ k → (2 : ℝ) ^ k / 2 ^ 26 ≤ 1 / 4 * 2 ^ (e - 23) → f32 x = 2 ^ k := by
    intro e d he hd hs
    unfold f32
    rw [if_neg hx.ne', he]
    have hg : (0 : ℝ) < 2 ^ (e - 23) := by positivity
    generalize (2 : ℝ) ^ (e - 23) = g at hd hs hg ⊢
    have : round (x / g) = d := by
      apply round_near
      have e1 : x / g - d = (x - 2 ^ k) / g := by rw [← hd]; field_simp
      rw [e1, abs_div, abs_of_pos hg, div_lt_iff₀ hg]
      linarith
    rw [this, ← hd]
    ring
  have hz : ∀ j : ℕ, (2 : ℝ) ^ ((k : ℤ) - j) * 2 ^ j = 2 ^ k := by
    intro j
    rw [zpow_sub₀ (by norm_num), zpow_natCast, zpow_natCast]
    field_simp
  rcases le_or_gt ((2 : ℝ) ^ k) x with hc | hc
  · refine key k (2 ^ 23) ?_ ?_ ?_
    · rw [abs_of_pos hx]
      apply le_antisymm
      · refine Int.lt_add_one_iff.1 ((Int.lt_zpow_iff_log_lt (b := 2) (by norm_num) hx).1 ?_)
        push_cast
        rw [zpow_add₀ (by norm_num), zpow_natCast, zpow_one]
        have : (2 : ℝ) ^ k / 2 ^ 26 ≤ 2 ^ k := div_le_self hk.le (by norm_num)
        linarith
      · refine (Int.zpow_le_iff_le_log (b := 2) (by norm_num) hx).1 ?_
        push_cast
        rw [zpow_natCast]
        exact hc
    · exact_mod_cast hz 23
    · have := hz 23
      push_cast at this
      rw [← this]
      have hp : (0 : ℝ) < 2 ^ ((k : ℤ) - 23) := by positivity
      generalize (2 : ℝ) ^ ((k : ℤ) - 23) = g at hp ⊢
      norm_num
      linarith
  · refine key (k - 1) (2 ^ 24) ?_ ?_ ?_
    · rw [abs_of_pos hx]
      have e1 : (2 : ℝ) ^ ((k : ℤ) - 1) = 2 ^ k / 2 := by rw [zpow_sub₀ (by norm_num), zpow_natCast, zpow_one]
      apply le_antisymm
      · refine Int.lt_add_one_iff.1 ((Int.lt_zpow_iff_log_lt (b := 2) (by norm_num) hx).1 ?_)
        push_cast
        rw [sub_add_cancel, zpow_natCast]
        exact hc
      · refine (Int.zpow_le_iff_le_log (b := 2) (by norm_num) hx).1 ?_
        push_cast
        rw [e1]
        have : (2 : ℝ) ^ k / 2 ^ 26 ≤ 2 ^ k / 2 := by gcongr; norm_num
        linarith
    · have := hz 24
      rw [show (k : ℤ) - 1 - 23 = k - (24 : ℕ) by push_cast; ring]
      exact_mod_cast this
    · have := hz 24
      rw [show (k : ℤ) - 1 - 23 = k - (24 : ℕ) by push_cast; ring]
      rw [← this]
      have hp : (0 : ℝ) < 2 ^ ((k : ℤ) - (24 : ℕ)) := by positivity
      generalize (2 : ℝ) ^ ((k : ℤ) - (24 : ℕ)) = g at hp ⊢
      norm_num
      linarith

theorem coordsWithin_exists (m : TriMesh ℝ) : ∃ B : ℝ, CoordsWithin B m := by
  induction m with
  | nil => exact ⟨0, fun t ht => by simp at ht⟩
  | cons t m ih =>
    obtain ⟨B, hB⟩ := ih
    set S := |t.v0.x| + |t.v0.y| + |t.v0.z| + |t.v1.x| + |t.v1.y| + |t.v1.z| + |t.v2.x| + |t.v2.y| + |t.v2.z| with hS
    have p : ∀ a : ℝ, 0 ≤ |a| := abs_nonneg
    refine ⟨max B S, fun t' ht' v hv => ?_⟩
    rcases List.mem_cons.1 ht' with rfl | h
    · have hv' : |v.x| ≤ S ∧ |v.y| ≤ S ∧ |v.z| ≤ S := by
        simp only [List.mem_cons, List.not_mem_nil, or_false] at hv
        have := p t'.v0.x; have := p t'.v0.y; have := p t'.v0.z; have := p t'.v1.x; have := p t'.v1.y; have := p t'.v1.z
        have := p t'.v2.x; have := p t'.v2.y; have := p t'.v2.z
        rcases hv with rfl | rfl | rfl <;> refine ⟨?_, ?_, ?_⟩ <;> linarith
      exact ⟨hv'.1.trans (le_max_right _ _), hv'.2.1.trans (le_max_right _ _), hv'.2.2.trans (le_max_right _ _)⟩
    · obtain ⟨h1, h2, h3⟩ := hB t' h v hv
      exact ⟨h1.trans (le_max_left _ _), h2.trans (le_max_left _ _), h3.trans (le_max_left _ _)⟩

theorem watertight_injective (f : V → V) (hf : Function.Injective f) (m : TriMesh ℝ) (h : Watertight m) : Watertight (mapVerts f m) := by
  unfold Watertight
  rw [edges_mapVerts]
  refine ⟨h.1.map fun e e' he => ?_, ?_⟩
  · rw [Prod.mk.injEq] at he
    exact Prod.ext (hf he.1) (hf he.2)
  · intro e he
    obtain ⟨e', he', rfl⟩ := List.mem_map.1 he
    exact ⟨fun h' => (h.2 e' he').1 (hf h'), List.mem_map.2 ⟨_, (h.2 e' he').2, rfl⟩⟩

/-- C159 fails far away from the origin: however good the mesh of a component is, translating the component by a large enough
power of two in all directions collapses the stored mesh to a single point, and it does not pass the check, although the exact mesh
does. -/
theorem C159_check_violated (eps : ℝ) (c : Comp) (n : ℕ) (hn : 1 ≤ n) (hr : c.stl_resolution = .int n) (hm : c.mesh_ = none)
    (hs : c.surfaces = none) (hk : (c.patches.map Prod.fst).Nodup) (hy : c.clustering.mirror_y = false) (M : StlMesh) (d : Comp)
    (hM : c.mesh = (.ok M, d)) (hw : Watertight M.tris) :
    ∃ k0 : ℕ, ∀ k ≥ k0, ∃ M' d' m, (c.translate (.vector ⟨2 ^ k, 2 ^ k, 2 ^ k⟩)).mesh = (.ok M', d') ∧
      stlCheck eps (StlMesh.ofTris M'.tris) false true = .ok true ∧
      (c.translate (.vector ⟨2 ^ k, 2 ^ k, 2 ^ k⟩)).meshStored f32 = .ok m ∧
      (∀ t ∈ m, ∀ v ∈ [t.v0, t.v1, t.v2], v = ⟨2 ^ k, 2 ^ k, 2 ^ k⟩) ∧
      stlCheck eps (StlMesh.ofTris m) false true = .ok false := by
  obtain ⟨B, hB⟩ := coordsWithin_exists M.tris
  obtain ⟨k1, hk1⟩ := pow_unbounded_of_one_lt B (by norm_num : (1 : ℝ) < 2)
  refine ⟨k1 + 26, fun k hk' => ?_⟩
  have hBk : B < 2 ^ k / 2 ^ 26 := by
    refine hk1.trans_le ?_
    rw [le_div_iff₀ (by positivity), ← pow_add]
    exact pow_le_pow_right₀ (by norm_num) hk'
  set w : V := ⟨2 ^ k, 2 ^ k, 2 ^ k⟩ with hwd
  have ha : ActsOnPatches (fun p q => q = p + w) c (c.translate (.vector w)) :=
    acts_imp (C49_translate_vector c w) fun p q h => Vec.ext h.1 h.2.1 h.2.2
  obtain ⟨M', d', h1, -, h2⟩ := mesh_acts c _ (fun p => p + w) ha n hn hr hm hs hk M d hM
  have h3 := h2 (fun p q u v => by simp only [cellCentre, MeshArith.real]; ext <;> simp <;> ring)
  have e : viaMirror c.clustering.mirror_y (fun p => p + w) = fun p => p + w := by
    funext p
    rw [viaMirror, hy]
    simp [meshVertex_real]
  rw [e] at h3
  have hinj : Function.Injective fun p : V => p + w := by
    intro p q h
    have hx := congrArg Vec.x h
    have hy := congrArg Vec.y h
    have hz := congrArg Vec.z h
    simp only [Vec.add_x, Vec.add_y, Vec.add_z, add_left_inj] at hx hy hz
    exact Vec.ext hx hy hz
  have hst : ∀ t ∈ mapVerts (storeV f32) M'.tris, ∀ v ∈ [t.v0, t.v1, t.v2], v = w := by
    intro t ht v hv
    rw [h3] at ht
    obtain ⟨t1, ht1, rfl⟩ := List.mem_map.1 ht
    obtain ⟨t0, ht0, rfl⟩ := List.mem_map.1 ht1
    have key : ∀ u ∈ [t0.v0, t0.v1, t0.v2], storeV f32 (u + w) = w := by
      intro u hu
      obtain ⟨b1, b2, b3⟩ := hB t0 ht0 u hu
      have P : ∀ a : ℝ, |a| ≤ B → f32 (a + 2 ^ k) = 2 ^ k := fun a ha => f32_power k _ (by rw [add_sub_cancel_right]; exact ha.trans_lt hBk)
      simp only [storeV, Vec.add_x, Vec.add_y, Vec.add_z, hwd, P _ b1, P _ b2, P _ b3]
    simp only [List.mem_cons, List.not_mem_nil, or_false] at hv
    rcases hv with rfl | rfl | rfl <;> exact key _ (by simp)
  refine ⟨M', d', _, h1, ?_, C159_storage f32 (c.translate (.vector w)) hm hs M' d' h1, hst, ?_⟩
  · obtain ⟨b, hb, hbi⟩ := C44_matching_lines eps M'.tris
    rw [hb, h3] at *
    congr 1
    rw [hbi]
    exact watertight_injective _ hinj _ hw
  · obtain ⟨b, hb, hbi⟩ := C44_matching_lines eps (mapVerts (storeV f32) M'.tris)
    rw [hb]
    congr 1
    cases b with
    | false => rfl
    | true =>
      exfalso
      have hne : M'.tris ≠ [] := by
        intro h0
        have hpne : c.patches ≠ [] := by
          intro h
          have := (C52_no_patches c none h hm hs).2
          rw [hM] at this
          simp at this
        have hlen := meshOf_length _ n hn _ _ ((C52_mesh c n hn hr hm hs hk hpne).2 M d hM)
        have : M.tris.length = 0 := by
          have h4 := congrArg List.length h3
          rw [h0] at h4
          simpa [mapVerts] using h4.symm
        rw [this] at hlen
        have := List.length_pos_iff.2 hpne
        have : 0 < c.patches.length * (4 * n ^ 2) := by positivity
        omega
      obtain ⟨t, ht⟩ := List.exists_mem_of_ne_nil _ hne
      have ht' : (⟨storeV f32 t.v0, storeV f32 t.v1, storeV f32 t.v2⟩ : Tri ℝ) ∈ mapVerts (storeV f32) M'.tris := List.mem_map.2 ⟨t, ht, rfl⟩
      have := (hbi.1 rfl).2 (storeV f32 t.v0, storeV f32 t.v1) (List.mem_flatMap.2 ⟨_, ht', by simp [triEdges]⟩)
      exact this.1 ((hst _ ht' _ (by simp)).trans (hst _ ht' _ (by simp)).symm)

/-! ## A box -/

noncomputable def boxX (k : ℕ) : ℝ := [0, 1, 1, 0].getD k 0
noncomputable def boxY (k : ℕ) : ℝ := [0, 0, 1, 1].getD k 0

/-- The unit box of resolution 1 after generation meets the hypotheses of the theorems above. -/
theorem box_stored : ∃ c : Comp, ∃ M d, c.mesh_ = none ∧ c.surfaces = none ∧ c.stl_resolution = .int 1 ∧ c.clustering = {} ∧
    (c.patches.map Prod.fst).Nodup ∧ c.mesh = (.ok M, d) ∧ Watertight M.tris ∧
    ∀ v, IsVertex v M.tris → ∀ x ∈ [v.x, v.y, v.z], x = 0 ∨ x = 1 / 2 ∨ x = 1 := by
  have hconv : StrictlyConvex 1 boxX boxY := by
    intro k hk
    interval_cases k <;> norm_num [boxX, boxY]
  obtain ⟨c, hc, hh⟩ := hexahedron_mesh (fun k => ⟨boxX k, boxY k, 0⟩) (fun k => ⟨boxX k, boxY k, 1⟩) 1 le_rfl none
  obtain ⟨h', M, d, g1, g2, -, m1, m2, m3, m4, m5, ht⟩ := hh (fun _ => c) 0 rfl
  obtain ⟨c', hc', hh'⟩ := C160_hexahedron_partial _ _ (convex_prism 1 boxX boxY 0 1 (by norm_num) hconv) 1 le_rfl none
  rw [hc] at hc'
  cases hc'
  obtain ⟨h2, M2, d2, k1, k2, k3, -⟩ := hh' (fun _ => c) 0 rfl
  rw [g1] at k1
  cases k1
  rw [g2] at k2
  cases k2
  refine ⟨h' 0, M, d, m1, m2, m4, m3, m5, g2, k3, ?_⟩
  intro v hv
  rw [ht, isVertex_flatten] at hv
  obtain ⟨m, hm, t, htm, hv⟩ := hv
  simp only [List.mem_cons, List.not_mem_nil, or_false] at hm
  rcases hm with rfl | rfl | rfl | rfl | rfl | rfl <;> obtain ⟨i, hi, j, hj, htm⟩ := (mem_gridMesh _ _ _ _ _ _).1 htm <;>
    (obtain rfl : i = 0 := by omega) <;> (obtain rfl : j = 0 := by omega) <;>
    simp only [cellTris, meshVertex_real, List.mem_cons, List.not_mem_nil, or_false] at htm <;>
    rcases htm with rfl | rfl | rfl | rfl <;> rcases hv with rfl | rfl | rfl <;>
    norm_num [quadGrid, quadPt, cellCentre, MeshArith.real, boxX, boxY]

/-- The box fulfils all hypotheses, so in storage it is closed, its volume is nearly exact, and it passes the check; but not when it
is far away from the origin. -/
example (eps : ℝ) : ∃ c : Comp, ∃ M d, c.mesh = (.ok M, d) ∧
    (∃ m, c.meshStored f32 = .ok m ∧ Closed m) ∧
    (∃ m, c.meshStored f32 = .ok m ∧ |signedVolume m - signedVolume M.tris| ≤ M.tris.length * (4 * 1 ^ 3 / 2 ^ 24)) ∧
    (∃ m, c.meshStored f32 = .ok m ∧ stlCheck eps (StlMesh.ofTris m) false true = .ok true) ∧
    ∃ k0 : ℕ, ∀ k ≥ k0, ∃ M' d' m, (c.translate (.vector ⟨2 ^ k, 2 ^ k, 2 ^ k⟩)).mesh = (.ok M', d') ∧
      stlCheck eps (StlMesh.ofTris M'.tris) false true = .ok true ∧
      (c.translate (.vector ⟨2 ^ k, 2 ^ k, 2 ^ k⟩)).meshStored f32 = .ok m ∧
      (∀ t ∈ m, ∀ v ∈ [t.v0, t.v1, t.v2], v = ⟨2 ^ k, 2 ^ k, 2 ^ k⟩) ∧
      stlCheck eps (StlMesh.ofTris m) false true = .ok false := by
  obtain ⟨c, M, d, m1, m2, m3, m4, m5, hM, hw, hv⟩ := box_stored
  have vert : ∀ t ∈ M.tris, ∀ v ∈ [t.v0, t.v1, t.v2], IsVertex v M.tris := by
    intro t ht v hv'
    exact ⟨t, ht, by simpa using hv'⟩
  have hB : CoordsWithin 1 M.tris := by
    intro t ht v hv'
    have := hv v (vert t ht v hv')
    simp only [List.mem_cons, List.not_mem_nil, or_false, forall_eq_or_imp, forall_eq] at this
    have one : ∀ x : ℝ, (x = 0 ∨ x = 1 / 2 ∨ x = 1) → |x| ≤ 1 := by
      rintro x (rfl | rfl | rfl) <;> norm_num [abs_of_pos]
    exact ⟨one _ this.1, one _ this.2.1, one _ this.2.2⟩
  have ev : ∀ e ∈ edges M.tris, IsVertex e.1 M.tris := by
    intro e he
    obtain ⟨t, ht, he⟩ := List.mem_flatMap.1 he
    simp only [triEdges, List.mem_cons, List.not_mem_nil, or_false] at he
    rcases he with rfl | rfl | rfl <;> exact vert t ht _ (by simp)
  refine ⟨c, M, d, hM, C159_closed f32 c m1 m2 M d hM (C44_closed _ hw), C159_volume c m1 m2 M d hM 1 zero_le_one hB,
    C159_check_partial eps c m1 m2 M d hM 1 zero_le_one hB hw ?_, C159_check_violated eps c 1 le_rfl m3 m1 m2 m5 (by rw [m4]) M d hM hw⟩
  intro e he f hf hne
  have he := hv _ (ev e he)
  have hf := hv _ (ev f hf)
  simp only [List.mem_cons, List.not_mem_nil, or_false, forall_eq_or_imp, forall_eq] at he hf
  have two : ∀ x y : ℝ, (x = 0 ∨ x = 1 / 2 ∨ x = 1) → (y = 0 ∨ y = 1 / 2 ∨ y = 1) → x ≠ y → 1 / 2 ^ 22 < |x - y| := by
    rintro x y (rfl | rfl | rfl) (rfl | rfl | rfl) h <;> first | exact absurd rfl h | norm_num [abs_of_pos, abs_of_neg]
  by_contra hno
  push Not at hno
  refine hne (Vec.ext ?_ ?_ ?_)
  · by_contra h; exact absurd (two _ _ he.1 hf.1 h) (not_lt.2 hno.1)
  · by_contra h; exact absurd (two _ _ he.2.1 hf.2.1 h) (not_lt.2 hno.2.1)
  · by_contra h; exact absurd (two _ _ he.2.2 hf.2.2 h) (not_lt.2 hno.2.2)

end HV
