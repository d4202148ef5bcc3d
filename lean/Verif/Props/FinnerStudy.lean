import Verif.Props.WedgeStudy
import Verif.Props.Finner
import Verif.Props.MovedMass
import Verif.Props.Size

/-!
# C165: the sensitivity study of the Finner
-/

namespace HV
open Spec Sens Veh

namespace Spec

/-- The study reports exactly the rates `R` for a component with the nominal mesh `M`: the table of each parameter holds the vertices of
the mesh, all of them, with their rates; the combined table has one row for each distinct vertex with the rates for all parameters. -/
structure ExactStudy (T : Tables) (self' : Study) (l : List (String × ℝ)) (c : String) (M : StlMesh) (R : String → V → V) : Prop where
  tables : ∀ e ∈ l, ∃ rows, tableAt T e.1 c = some rows ∧
    (∀ r ∈ rows, r.pos ∈ vertexList M ∧ r.sens = ⟨some (R e.1 r.pos).x, some (R e.1 r.pos).y, some (R e.1 r.pos).z⟩) ∧
    ∀ x ∈ vertexList M, ∃ r ∈ rows, r.pos = x
  combined : ∃ d t, self'.componentSens = some d ∧ d.get? c = some t ∧ t.params = l.map Prod.fst ∧ OneRowEach (vertexList M) t.rows ∧
    ∀ r ∈ t.rows, ∀ x, r.pos = some x → r.sens = l.map fun e => ⟨some (R e.1 x).x, some (R e.1 x).y, some (R e.1 x).z⟩

/-- How a point of the body of the Finner moves with a parameter: the diameter stretches it across, the length of the nose stretches the
nose and compresses the rest, the total length stretches the part behind the nose. -/
noncomputable def finnerBodyRate (p : Finner.Params) (name : String) (x : V) : V :=
  if name = "diameter" then ⟨0, x.y / p.diameter, x.z / p.diameter⟩
  else if name = "nose_length" then
    ⟨if x.x ≤ p.nose_length then x.x / p.nose_length else (p.total_length - x.x) / (p.total_length - p.nose_length), 0, 0⟩
  else if name = "total_length" then
    ⟨if x.x ≤ p.nose_length then 0 else (x.x - p.nose_length) / (p.total_length - p.nose_length), 0, 0⟩
  else ⟨0, 0, 0⟩

/-- How a point of the fin at the side `z > 0` moves: with the length of the fin its front moves forwards, with the thickness its sides
move apart, with the height its tip moves out; with the total length it moves back, with the diameter it moves out by half as much. -/
noncomputable def finnerFinRate (p : Finner.Params) (name : String) (x : V) : V :=
  if name = "fin_length" then ⟨-((p.total_length - x.x) / p.fin_length), 0, 0⟩
  else if name = "max_fin_thickness" then ⟨0, x.y / p.max_fin_thickness, 0⟩
  else if name = "fin_height" then ⟨0, 0, (x.z - p.diameter / 2) / p.fin_height⟩
  else if name = "total_length" then ⟨1, 0, 0⟩
  else if name = "diameter" then ⟨0, 0, 1 / 2⟩
  else ⟨0, 0, 0⟩

/-- The same for the fin number `i`, which is `i` quarter turns further. -/
noncomputable def finnerTurnedRate (p : Finner.Params) (i : ℕ) (name : String) (x : V) : V :=
  quarterTurn^[i] (finnerFinRate p name (quarterTurn^[3 * i] x))

end Spec

/-! ## Studies of vehicles whose meshes move -/

theorem makes_mem {ctor : Ctor} {lib : Lib} {depth : ℕ} {kw : Dict String Val} {v : Veh} {ms : Dict String StlMesh} (hn : ms.keys.Nodup)
    {c : String} {M : StlMesh} (hm : (c, M) ∈ ms) (h : Makes ctor lib depth kw v ms) : Generates ctor lib depth kw c M := by
  obtain ⟨st, st', h1, h2, rfl, h4, -⟩ := h
  have hkeys : Dict.keys st'.veh.named = ms.keys := by
    clear hm hn h2
    unfold Dict.keys
    generalize st'.veh.named = named at h4
    induction h4 with
    | nil => rfl
    | cons a _ ih => simp only [List.map_cons, ih, a.1]
  obtain ⟨i, hi, hM⟩ := List.mem_iff_getElem.1 hm
  have hi' : i < st'.veh.named.length := by rw [h4.length_eq]; exact hi
  obtain ⟨k1, d, k2⟩ := (List.forall₂_iff_get.1 h4).2 i hi' hi
  simp only [List.get_eq_getElem, hM] at k1 k2
  refine ⟨st, st', st'.veh.named[i].2, d, h1, h2, ?_, k2⟩
  apply Dict.get?_of_mem
  · rw [hkeys]; exact hn
  · rw [k1]; exact List.getElem_mem hi'

/-- A study of a vehicle for which every perturbation moves the vertices of every component by a known rate. -/
theorem study_exact (ctor : Ctor) (lib : Lib) (depth : ℕ) (self : Study) (run : Run) (l : List (String × ℝ))
    (overrides : Dict String ParamVal) (hn : (l.map Prod.fst).Nodup) (hd : ∀ e ∈ l, e.1 ∉ overrides.keys) (hl : l ≠ []) (p : ℝ)
    (write : Bool) (pre : Option String) (v : Veh) (ms : Dict String StlMesh) (hms : ms.keys.Nodup) (ha : v.analysisResults = none)
    (hq : v.properties = []) (R : String → String → V → V)
    (hnom : Makes ctor lib depth (kwGiven run.store (numbers l) overrides) v ms)
    (hpar : ∀ e ∈ l, ∃ v' ms', Makes ctor lib depth (kwWith run.store (numbers l) overrides e.1 (e.2 * (1 + p / 100))) v' ms' ∧
      ms'.keys.Nodup ∧ ∀ m ∈ ms, ∃ M', (m.1, M') ∈ ms' ∧ ∃ f : V → V, M'.tris = mapVerts f m.2.tris ∧
        (e.2 ≠ 0 → p ≠ 0 → ∀ x, x ∈ vertexList m.2 → f x = x + R m.1 e.1 x * (e.2 * p / 100))) :
    ∃ T self' run', dvdp self ctor lib depth run (numbers l) overrides p write pre = (.ok T, self', run') ∧
      (p ≠ 0 → (∀ e ∈ l, e.2 ≠ 0) → ∀ m ∈ ms, ExactStudy T self' l m.1 m.2 (R m.1)) := by
  obtain ⟨T, self', run', hdv⟩ := C122_partial self ctor lib depth run l overrides hn hd hl p write pre v ms hnom (by
    intro e he
    obtain ⟨v', ms', h1, h2, h3⟩ := hpar e he
    refine ⟨v', ms', h1, ⟨?_, fun h => absurd ha h, ?_⟩⟩
    · intro m hm
      obtain ⟨M', k1, f, k2, -⟩ := h3 m hm
      exact ⟨M', Dict.get?_of_mem h2 k1, by rw [k2]; simp [mapVerts]⟩
    · intro k hk
      rw [hq] at hk
      simp [Dict.keys] at hk)
  refine ⟨T, self', run', hdv, fun hp hv m hm => ?_⟩
  have hM : Generates ctor lib depth (kwGiven run.store (numbers l) overrides) m.1 m.2 := makes_mem hms hm hnom
  have hch : ∀ n : String, ∃ M' : StlMesh, ∀ e ∈ l, e.1 = n →
      Generates ctor lib depth (kwWith run.store (numbers l) overrides e.1 (e.2 * (1 + p / 100))) m.1 M' ∧
      ∃ f : V → V, M'.tris = mapVerts f m.2.tris ∧ ∀ x, x ∈ vertexList m.2 → f x = x + R m.1 e.1 x * (e.2 * p / 100) := by
    intro n
    by_cases hx : ∃ e ∈ l, e.1 = n
    · obtain ⟨e, he, rfl⟩ := hx
      obtain ⟨v', ms', h1, h2, h3⟩ := hpar e he
      obtain ⟨M', k1, f, k2, k3⟩ := h3 m hm
      refine ⟨M', fun e' he' hee => ?_⟩
      have : e' = e := by
        have g1 := Dict.get?_of_mem (d := l) hn he
        have g2 := Dict.get?_of_mem (d := l) hn he'
        rw [hee, g1] at g2
        exact Prod.ext hee (Option.some.inj g2).symm
      subst this
      exact ⟨makes_mem h2 k1 h1, f, k2, k3 (hv e' he') hp⟩
    · exact ⟨m.2, fun e he hee => absurd ⟨e, he, hee⟩ hx⟩
  choose Mp hMp using hch
  have hG := fun e he => (hMp e.1 e he rfl).1
  have hF := fun e he => (hMp e.1 e he rfl).2
  have htog : ∀ e ∈ l, KeepsTogether m.2 (Mp e.1) := by
    intro e he
    obtain ⟨f, k1, -⟩ := hF e he
    exact wedge_together k1
  have hrate : ∀ e ∈ l, ∀ i x, (vertexList m.2)[i]? = some x →
      rate m.2 (Mp e.1) i (e.2 * p / 100) = ⟨some (R m.1 e.1 x).x, some (R m.1 e.1 x).y, some (R m.1 e.1 x).z⟩ := by
    intro e he i x hx
    obtain ⟨f, k1, k2⟩ := hF e he
    have hd0 := (scaled_diff e.2 p (hv e he) hp).2
    unfold rate
    rw [vertexList_map _ _ f k1, List.getElem?_map, hx]
    simp only [Option.map_some, k2 x (List.mem_of_getElem? hx), Vec.add_x, Vec.add_y, Vec.add_z, Vec.mul_x, Vec.mul_y, Vec.mul_z,
      add_sub_cancel_left, mul_div_cancel_right₀ _ hd0]
  constructor
  · intro e he
    obtain ⟨M', rows, h1, h2, h3⟩ := (study_tables hn hdv).2 e he m.1 m.2 hM
    obtain rfl : Mp e.1 = M' := generates_unique (hG e he) h1
    have hlen := (htog e he).1
    obtain ⟨s1, s2⟩ := scaled_diff e.2 p (hv e he) hp
    rw [s1] at h3
    have hsl := slope_row s2 hlen h3
    obtain ⟨⟨-, -, hr⟩, -⟩ := compare_rows hlen h3
    refine ⟨rows, h2, fun r hr => ⟨List.mem_of_getElem? (hsl r hr).2, ?_⟩, fun x hx => ?_⟩
    · rw [(hsl r hr).1]
      exact hrate e he _ _ (hsl r hr).2
    · obtain ⟨i, hi, rfl⟩ := List.mem_iff_getElem.1 hx
      obtain ⟨r, hr1, hr2⟩ := hr ((vertexList m.2)[i], (vertexList (Mp e.1))[i]'(by omega) - (vertexList m.2)[i]) (List.mem_map.2
        ⟨((vertexList m.2)[i], (vertexList (Mp e.1))[i]'(by omega)), List.mem_iff_getElem.2 ⟨i, by simp; omega, by simp⟩, rfl⟩)
      simp only [Prod.mk.injEq] at hr2
      exact ⟨r, hr1, hr2.1⟩
  · obtain ⟨d, t, d1, d2, d3, d4, d5⟩ := C84_partial hn hdv hp hv m.1 m.2 Mp hM hG htog
    refine ⟨d, t, d1, d2, d3, d4, fun r hr x hx => ?_⟩
    rw [d5 r hr]
    apply List.map_congr_left
    intro e he
    obtain ⟨y, y1, y2, -⟩ := d4.first r hr
    rw [hx] at y1
    cases y1
    exact hrate e he _ _ y2

/-! ## The body -/

theorem mapVerts_agree {f g : V → V} {M : TriMesh ℝ} (h : ∀ v, IsVertex v M → f v = g v) : mapVerts f M = mapVerts g M := by
  unfold mapVerts
  apply List.map_congr_left
  intro t ht
  rw [h t.v0 ⟨t, ht, .inl rfl⟩, h t.v1 ⟨t, ht, .inr (.inl rfl)⟩, h t.v2 ⟨t, ht, .inr (.inr rfl)⟩]

theorem vertexList_isVertex {M : StlMesh} {x : V} (hx : x ∈ vertexList M) : IsVertex x M.tris := by
  obtain ⟨t, ht, h⟩ := List.mem_flatMap.1 hx
  exact ⟨t, ht, by simpa using h⟩

/-- A map along the axis, with the same factor for both directions across. -/
noncomputable def axial (a b c : ℝ) (v : V) : V := ⟨a * v.x + b, c * v.y, c * v.z⟩

theorem axial_affine (a b c : ℝ) : IsAffine (axial a b c) (Matrix.diagonal ![a, c, c]) := by
  refine ⟨![b, 0, 0], fun p => ?_⟩
  ext i
  rw [Pi.add_apply, Matrix.mulVec_diagonal]
  fin_cases i <;> simp [toF, axial]

/-- The line `f'` is the image of the line `f` under a map along the axis, and `F` is that map where the line is. -/
def PieceOf (F : V → V) (f f' : ℝ → V) : Prop := ∃ a b c lo hi : ℝ, (∀ t, f' t = axial a b c (f t)) ∧
  (∀ t, 0 ≤ t → t ≤ 1 → lo ≤ (f t).x ∧ (f t).x ≤ hi) ∧ ∀ v : V, lo ≤ v.x → v.x ≤ hi → F v = axial a b c v

theorem piece_grid {F : V → V} {f f' : ℝ → V} (h : PieceOf F f f') (n : ℕ) (hn : 1 ≤ n) (k : ℕ) :
    gridMesh MeshArith.real false n n (revolveGrid f' n k) = mapVerts F (gridMesh MeshArith.real false n n (revolveGrid f n k)) := by
  obtain ⟨a, b, c, lo, hi, h1, h2, h3⟩ := h
  rw [gridMesh_image (axial_affine a b c) n (revolveGrid f n k) (revolveGrid f' n k) (fun i _ j _ => by
    simp only [revolveGrid, h1, revolveRot, axial]
    ext <;> simp <;> ring)]
  apply mapVerts_agree
  intro v hv
  have := grid_keeps n _ (fun v : V => lo ≤ v.x ∧ v.x ≤ hi) (by
    intro p q r s hp hq hr hs
    simp only [cellCentre, MeshArith.real, Vec.mul_x, Vec.add_x]
    constructor <;> linarith [hp.1, hp.2, hq.1, hq.2, hr.1, hr.2, hs.1, hs.2]) (by
    intro i hi j _
    obtain ⟨a1, a2⟩ := unit_div n i hn hi
    exact h2 _ a1 a2) v hv
  exact (h3 v this.1 this.2).symm

theorem pieces_grid {F : V → V} {fs fs' : List (ℝ → V)} (h : List.Forall₂ (PieceOf F) fs fs') (n : ℕ) (hn : 1 ≤ n) :
    ((allGrids n fs').map (gridMesh MeshArith.real false n n)).flatten =
      mapVerts F ((allGrids n fs).map (gridMesh MeshArith.real false n n)).flatten := by
  induction h with
  | nil => simp [allGrids, mapVerts]
  | @cons f f' _ _ a _ ih =>
    unfold allGrids at ih ⊢
    simp only [List.flatMap_cons, List.map_append, List.flatten_append, ih, mapVerts, List.map_flatten, List.map_map]
    congr 2
    apply List.map_congr_left
    intro k _
    exact piece_grid a n hn k

/-- How the points of the body move when the lengths change to `N'` and `T'` and the diameter is multiplied by `c`. -/
noncomputable def bodyMove (N T N' T' c : ℝ) (v : V) : V :=
  ⟨if v.x ≤ N then N' / N * v.x else N' + (T' - N') / (T - N) * (v.x - N), c * v.y, c * v.z⟩

theorem finner_pieces (p p' : Finner.Params) (c : ℝ) (hN : 0 < p.nose_length) (hT : p.nose_length < p.total_length)
    (hc : p'.diameter = p.diameter * c) :
    List.Forall₂ (PieceOf (bodyMove p.nose_length p.total_length p'.nose_length p'.total_length c)) (finnerLines p) (finnerLines p') := by
  have hN0 := hN.ne'
  have hT0 : p.total_length - p.nose_length ≠ 0 := (sub_pos.2 hT).ne'
  have hTN : ¬ p.total_length ≤ p.nose_length := not_le.2 hT
  refine .cons ⟨p'.nose_length / p.nose_length, 0, c, 0, p.nose_length, ?_, ?_, ?_⟩
    (.cons ⟨(p'.total_length - p'.nose_length) / (p.total_length - p.nose_length),
      p'.nose_length - (p'.total_length - p'.nose_length) / (p.total_length - p.nose_length) * p.nose_length, c, p.nose_length, p.total_length,
      ?_, ?_, ?_⟩ (.cons ⟨1, p'.total_length - p.total_length, c, p.total_length, p.total_length, ?_, ?_, ?_⟩ .nil))
  · intro t
    ext <;> simp [lineAt, axial, hc] <;> field_simp
  · intro t t0 t1
    simp only [lineAt, Vec.add_x, Vec.mul_x]
    constructor <;> nlinarith
  · intro v _ h2
    simp [bodyMove, axial, h2]
  · intro t
    ext
    · simp only [lineAt, axial, Vec.add_x, Vec.mul_x]
      field_simp
      ring
    · simp only [lineAt, axial, Vec.add_y, Vec.mul_y, hc]
      ring
    · simp [lineAt, axial]
  · intro t t0 t1
    simp only [lineAt, Vec.add_x, Vec.mul_x]
    constructor <;> nlinarith
  · intro v h1 h2
    by_cases h : v.x ≤ p.nose_length
    · have e : v.x = p.nose_length := le_antisymm h h1
      simp only [bodyMove, axial, if_pos h]
      rw [e]
      ext
      · simp only
        field_simp
        ring
      · rfl
      · rfl
    · simp only [bodyMove, axial, if_neg h]
      ext
      · simp only
        ring
      · rfl
      · rfl
  · intro t
    ext
    · simp only [lineAt, axial, Vec.add_x, Vec.mul_x]
      ring
    · simp only [lineAt, axial, Vec.add_y, Vec.mul_y, hc]
      ring
    · simp [lineAt, axial]
  · intro t t0 t1
    simp only [lineAt, Vec.add_x, Vec.mul_x]
    constructor <;> linarith
  · intro v h1 h2
    have e : v.x = p.total_length := le_antisymm h2 h1
    simp only [bodyMove, axial, e, if_neg hTN]
    ext
    · simp only
      field_simp
      ring
    · rfl
    · rfl

/-- The parameters with one multiplied by a factor. -/
noncomputable def finnerTimes (p : Finner.Params) (name : String) (f : ℝ) : Finner.Params :=
  let k (s : String) : ℝ := if s = name then f else 1
  ⟨p.diameter * k "diameter", p.total_length * k "total_length", p.nose_length * k "nose_length", p.fin_height * k "fin_height",
    p.fin_length * k "fin_length", p.max_fin_thickness * k "max_fin_thickness"⟩

/-- The value of a parameter of the Finner. -/
def finnerValue (p : Finner.Params) (name : String) (v : ℝ) : Prop :=
  ("diameter" = name → p.diameter = v) ∧ ("total_length" = name → p.total_length = v) ∧ ("nose_length" = name → p.nose_length = v) ∧
    ("fin_height" = name → p.fin_height = v) ∧ ("fin_length" = name → p.fin_length = v) ∧ ("max_fin_thickness" = name → p.max_fin_thickness = v)

theorem finner_body_rate (p : Finner.Params) (name : String) (v q : ℝ) (hv : v ≠ 0) (hval : finnerValue p name v)
    (hN : 0 < p.nose_length) (hT : p.nose_length < p.total_length) (x : V) :
    bodyMove p.nose_length p.total_length (finnerTimes p name (1 + q / 100)).nose_length (finnerTimes p name (1 + q / 100)).total_length
      (if "diameter" = name then 1 + q / 100 else 1) x = x + finnerBodyRate p name x * (v * q / 100) := by
  obtain ⟨v1, v2, v3, -, -, -⟩ := hval
  have hN0 := hN.ne'
  have hT0 : p.total_length - p.nose_length ≠ 0 := (sub_pos.2 hT).ne'
  unfold bodyMove finnerTimes finnerBodyRate
  by_cases h1 : "diameter" = name
  · subst h1
    have e := v1 rfl
    have h0 : p.diameter ≠ 0 := by rw [e]; exact hv
    rw [← e]
    ext
    · simp only [String.reduceEq, if_true, if_false, mul_one, Vec.add_x, Vec.mul_x]
      split_ifs
      · field_simp
        ring
      · field_simp
        ring
    · simp only [String.reduceEq, if_true, if_false, Vec.add_y, Vec.mul_y]
      field_simp
    · simp only [String.reduceEq, if_true, if_false, Vec.add_z, Vec.mul_z]
      field_simp
  · by_cases h2 : "nose_length" = name
    · subst h2
      have e := v3 rfl
      rw [← e]
      ext
      · simp only [String.reduceEq, if_true, if_false, mul_one, Vec.add_x, Vec.mul_x]
        split_ifs
        · field_simp
        · field_simp
          ring
      · simp only [String.reduceEq, if_true, if_false, Vec.add_y, Vec.mul_y]
        ring
      · simp only [String.reduceEq, if_true, if_false, Vec.add_z, Vec.mul_z]
        ring
    · by_cases h3 : "total_length" = name
      · subst h3
        have e := v2 rfl
        rw [← e]
        ext
        · simp only [String.reduceEq, if_true, if_false, mul_one, Vec.add_x, Vec.mul_x]
          split_ifs
          · field_simp
            ring
          · field_simp
            ring
        · simp only [String.reduceEq, if_true, if_false, Vec.add_y, Vec.mul_y]
          ring
        · simp only [String.reduceEq, if_true, if_false, Vec.add_z, Vec.mul_z]
          ring
      · simp only [if_neg h1, if_neg h2, if_neg h3, if_neg (Ne.symm h1), if_neg (Ne.symm h2), if_neg (Ne.symm h3), mul_one]
        ext
        · simp only [Vec.add_x, Vec.mul_x]
          split_ifs
          · field_simp
            ring
          · field_simp
            ring
        · simp
        · simp

/-! ## The fins -/

theorem turn_add (i : ℕ) (a b : V) (k : ℝ) : quarterTurn^[i] (a + b * k) = quarterTurn^[i] a + quarterTurn^[i] b * k := by
  induction i with
  | zero => rfl
  | succ i ih =>
    rw [Function.iterate_succ_apply', Function.iterate_succ_apply', Function.iterate_succ_apply', ih]
    ext <;> simp [quarterTurn]
    ring

theorem turn_four (v : V) : quarterTurn^[4] v = v := by
  ext <;> simp [quarterTurn]

theorem turn_back (i : ℕ) (v : V) : quarterTurn^[3 * i] (quarterTurn^[i] v) = v ∧ quarterTurn^[i] (quarterTurn^[3 * i] v) = v := by
  have h4 : ∀ i, quarterTurn^[4 * i] v = v := by
    intro i
    induction i with
    | zero => rfl
    | succ i ih => rw [show 4 * (i + 1) = 4 * i + 4 by ring, Function.iterate_add_apply, turn_four, ih]
  constructor
  · rw [← Function.iterate_add_apply, show 3 * i + i = 4 * i by ring, h4]
  · rw [← Function.iterate_add_apply, show i + 3 * i = 4 * i by ring, h4]

/-- Taking a fin off the rocket. -/
noncomputable def finUnplace (D T : ℝ) (v : V) : V := ⟨v.y, T - v.x, v.z - D / 2⟩

theorem fin_unplace (D T : ℝ) (v : V) : finUnplace D T (finPlace D T v) = v := by
  ext <;> simp [finUnplace, finPlace]

/-- How the points of the fin number `i` move when the parameters change. -/
noncomputable def finMoveTo (p p' : Finner.Params) (ct cl ch : ℝ) (i : ℕ) (w : V) : V :=
  quarterTurn^[i] (finPlace p'.diameter p'.total_length (stretch ct cl ch (finUnplace p.diameter p.total_length (quarterTurn^[3 * i] w))))

theorem finner_fin_rate (p : Finner.Params) (name : String) (v q : ℝ) (hv : v ≠ 0) (hval : finnerValue p name v) (i : ℕ) (w : V) :
    finMoveTo p (finnerTimes p name (1 + q / 100)) (if "max_fin_thickness" = name then 1 + q / 100 else 1)
      (if "fin_length" = name then 1 + q / 100 else 1) (if "fin_height" = name then 1 + q / 100 else 1) i w =
      w + finnerTurnedRate p i name w * (v * q / 100) := by
  obtain ⟨v1, v2, v3, v4, v5, v6⟩ := hval
  have key : ∀ u : V, finPlace (finnerTimes p name (1 + q / 100)).diameter (finnerTimes p name (1 + q / 100)).total_length
      (stretch (if "max_fin_thickness" = name then 1 + q / 100 else 1) (if "fin_length" = name then 1 + q / 100 else 1)
        (if "fin_height" = name then 1 + q / 100 else 1) (finUnplace p.diameter p.total_length u)) =
      u + finnerFinRate p name u * (v * q / 100) := by
    intro u
    unfold finnerTimes finnerFinRate finPlace stretch finUnplace
    by_cases h1 : "fin_length" = name
    · subst h1
      have e := v5 rfl
      have h0 : p.fin_length ≠ 0 := by rw [e]; exact hv
      rw [← e]
      ext <;> simp
      field_simp
      ring
    · by_cases h2 : "max_fin_thickness" = name
      · subst h2
        have e := v6 rfl
        have h0 : p.max_fin_thickness ≠ 0 := by rw [e]; exact hv
        rw [← e]
        ext <;> simp
        field_simp
      · by_cases h3 : "fin_height" = name
        · subst h3
          have e := v4 rfl
          have h0 : p.fin_height ≠ 0 := by rw [e]; exact hv
          rw [← e]
          ext <;> simp
          field_simp
          ring
        · by_cases h4 : "total_length" = name
          · subst h4
            have e := v2 rfl
            rw [← e]
            ext <;> simp
            ring
          · by_cases h5 : "diameter" = name
            · subst h5
              have e := v1 rfl
              rw [← e]
              ext <;> simp
              ring
            · simp only [if_neg h1, if_neg h2, if_neg h3, if_neg h4, if_neg h5, if_neg (Ne.symm h1), if_neg (Ne.symm h2),
                if_neg (Ne.symm h3), if_neg (Ne.symm h4), if_neg (Ne.symm h5), mul_one]
              ext <;> simp
  unfold finMoveTo finnerTurnedRate
  rw [key, turn_add, (turn_back i w).2]

theorem fin_image (p p' : Finner.Params) (ct cl ch : ℝ) (h1 : p'.max_fin_thickness = p.max_fin_thickness * ct)
    (h2 : p'.fin_length = p.fin_length * cl) (h3 : p'.fin_height = p.fin_height * ch) :
    SectionsImage (stretch ct cl ch) (Finner.finSections p) (Finner.finSections p') := by
  rw [fin_sections, fin_sections]
  unfold SectionsImage
  simp only [List.map_cons, List.map_nil]
  refine .cons ?_ (.cons ?_ .nil)
  all_goals
    unfold quadSection
    refine .cons ?_ (.cons ?_ (.cons ?_ (.cons ?_ .nil))) <;>
    · intro s _ _ q hq
      simp only [Line, lineAt, Except.ok.injEq] at hq ⊢
      subst hq
      ext <;> simp [stretch, finX, finY, h1, h2, h3] <;> ring

/-- The drawing of a fin and of the fin with other dimensions. -/
theorem fin_pair (p p' : Finner.Params) (ct cl ch : ℝ) (h1 : p'.max_fin_thickness = p.max_fin_thickness * ct)
    (h2 : p'.fin_length = p.fin_length * cl) (h3 : p'.fin_height = p.fin_height * ch) (g : Heap) (M : StlMesh) (d : Comp) (g' : Heap)
    (M' : StlMesh) (d' : Comp)
    (e1 : generatePatches (fun _ => Swept.comp (Finner.finSections p) 4 true (.int 4) none) 0 = (.ok (), g)) (e2 : (g 0).mesh = (.ok M, d))
    (e3 : generatePatches (fun _ => Swept.comp (Finner.finSections p') 4 true (.int 4) none) 0 = (.ok (), g'))
    (e4 : (g' 0).mesh = (.ok M', d')) : M'.tris = mapVerts (stretch ct cl ch) M.tris := by
  have hx := quad_extrusion (finX p.max_fin_thickness) (finY p.fin_length) [0, p.fin_height]
  rw [← fin_sections] at hx
  obtain ⟨c1, c2, i1, i2, hh⟩ := C123_swept (stretch_affine ct cl ch) (fin_image p p' ct cl ch h1 h2 h3) (by simp [Finner.finSections]) hx.len
    hx.total (hx.closed fun ne hne => ⟨quad_closes _ ne hne, quad_closes _ ne hne⟩) (.int 4) 4 4 (.inl ⟨rfl, rfl⟩) (by norm_num) (by norm_num) none
  rw [(fin_mesh p).1] at i1
  rw [(fin_mesh p').1] at i2
  cases i1
  cases i2
  obtain ⟨k, N, e, k', N', e', q1, q2, q3, q4, q5⟩ := hh (fun _ => _) (fun _ => _) 0 0 rfl rfl
  rw [e1] at q1
  obtain rfl : g = k := congrArg Prod.snd q1
  rw [e3] at q3
  obtain rfl : g' = k' := congrArg Prod.snd q3
  rw [e2] at q2
  obtain rfl : M = N := by have := congrArg Prod.fst q2; simpa using this
  rw [e4] at q4
  obtain rfl : M' = N' := by have := congrArg Prod.fst q4; simpa using this
  exact q5

/-! ## The study -/

/-- A vehicle that is not transformed or analysed generates the same meshes without messages. -/
theorem generate_quiet (lib : Lib) (depth : ℕ) (st st' : VState) (hang : st.veh.angleOffset = 0) (htr : st.veh.transformations = [])
    (han : st.veh.analyseOn = none) (h : generate lib depth st = (.ok (), st')) :
    generate lib depth ⟨st.heap, { st.veh with verbosity := 0 }⟩ =
      (.ok (), ⟨st'.heap, { st.veh with verbosity := 0, generated := true }⟩) := by
  unfold generate generateWith at h ⊢
  rw [hang] at h
  simp only [hang]
  rcases hg : genAll 0 st.heap st.veh.components with ⟨r, h'⟩
  rw [hg] at h
  cases r with
  | error e => simp at h
  | ok u =>
    simp only [genTransform, htr, if_true, genAnalyse, han] at h ⊢
    have := congrArg Prod.snd h
    simp only at this
    rw [← this]

theorem finner_ctor (h : Heap) (ids : ℕ → ℕ) (kwargs : Dict String ℝ) : Finner.ctor h ids (vals kwargs) = Finner.instanceOf h ids kwargs := by
  unfold Finner.ctor vals
  rw [mapM_ok (kwargs.map fun e => (e.1, Val.num e.2)) _ (fun e => (e.1, match e.2 with | .num x => x | .arr _ => 0)) (by
    intro e he
    obtain ⟨x, -, rfl⟩ := List.mem_map.1 he
    rfl), ok_bind, List.map_map]
  congr 1
  conv_rhs => rw [← List.map_id kwargs]
  rfl

/-- The Finner after its generation without messages. -/
def finnerMade (ids : ℕ → ℕ) : Veh := { finnerVeh ids with verbosity := 0, generated := true }

/-- The meshes of the components of the Finner. -/
def finnerMeshes (MF : StlMesh) (Mi : ℕ → StlMesh) : Dict String StlMesh :=
  [("fuselage", MF), ("fin_1", Mi 0), ("fin_2", Mi 1), ("fin_3", Mi 2), ("fin_4", Mi 3)]

theorem finner_makes (h : Heap) (ids : ℕ → ℕ) (hi : Function.Injective ids) (kwargs : Dict String ℝ) (p : Finner.Params)
    (ha : FinnerArgs kwargs p) (lib : Lib) (depth : ℕ) : ∃ MF Mi h0 M0 c0,
      Makes (Finner.ctor h ids) lib depth (vals kwargs) (finnerMade ids) (finnerMeshes MF Mi) ∧
      MF.tris = ((allGrids 8 (finnerLines p)).map (gridMesh MeshArith.real false 8 8)).flatten ∧
      generatePatches (fun _ => Swept.comp (Finner.finSections p) 4 true (.int 4) none) 0 = (.ok (), h0) ∧ (h0 0).mesh = (.ok M0, c0) ∧
      ∀ i < 4, (Mi i).tris = mapVerts (fun v => quarterTurn^[i] (finPlace p.diameter p.total_length v)) M0.tris := by
  obtain ⟨st, s1, -, -, -, s2, fin, h0, M0, c0, f1, f2, f3, f4⟩ := C103_finner h ids hi kwargs p ha
  obtain ⟨st0, i1, i2, -⟩ := finner_instance h ids hi kwargs p ha
  rw [s1] at i1
  obtain rfl := Except.ok.inj i1
  have hfin : fin = Swept.comp (Finner.finSections p) 4 true (.int 4) none := by
    have := (fin_mesh p).1
    rw [fin_sections] at this
    have e : ([0, p.fin_height].map fun z => [Line ⟨0, p.fin_length, z⟩ ⟨p.max_fin_thickness / 2, 0, z⟩,
        Line ⟨p.max_fin_thickness / 2, 0, z⟩ ⟨0, 0, z⟩, Line ⟨0, 0, z⟩ ⟨-(p.max_fin_thickness / 2), 0, z⟩,
        Line ⟨-(p.max_fin_thickness / 2), 0, z⟩ ⟨0, p.fin_length, z⟩]) =
        [0, p.fin_height].map (quadSection (finX p.max_fin_thickness) (finY p.fin_length)) := by simp [quadSection, finX, finY]
    rw [e, this] at f1
    rw [fin_sections]
    exact (Except.ok.inj f1).symm
  subst hfin
  obtain ⟨st', g1, ⟨MF, cF, g2, -⟩, g3⟩ := f4 8 (by norm_num) lib depth
  have hF := finner_fuselage_grids h ids hi kwargs p ha st st' s1 8 (by norm_num) lib depth g1 MF cF g2
  rw [s2] at g1
  have hq := generate_quiet lib depth st st' (by rw [i2]; rfl) (by rw [i2]; rfl) (by rw [i2]; rfl) g1
  have hch : ∀ i : ℕ, ∃ M : StlMesh, i < 4 → (∃ c, (st'.heap (ids (4 + i))).mesh = (.ok M, c)) ∧
      M.tris = mapVerts (fun v => quarterTurn^[i] (finPlace p.diameter p.total_length v)) M0.tris := by
    intro i
    by_cases h4 : i < 4
    · obtain ⟨M, c, k1, -, -, k2⟩ := g3 i h4
      exact ⟨M, fun _ => ⟨⟨c, k1⟩, k2⟩⟩
    · exact ⟨M0, fun h => absurd h h4⟩
  choose Mi hMi using hch
  refine ⟨MF, Mi, h0, M0, c0, ⟨st, _, ?_, hq, ?_, ?_, ?_⟩, hF, f2, f3, fun i h4 => (hMi i h4).2⟩
  · rw [finner_ctor, s1]
  · show ({ st.veh with verbosity := 0, generated := true } : Veh) = _
    rw [i2]
    rfl
  · exact .cons ⟨rfl, cF, g2⟩ (.cons ⟨rfl, (hMi 0 (by norm_num)).1⟩ (.cons ⟨rfl, (hMi 1 (by norm_num)).1⟩
      (.cons ⟨rfl, (hMi 2 (by norm_num)).1⟩ (.cons ⟨rfl, (hMi 3 (by norm_num)).1⟩ .nil))))
  · intro k hk
    have hk : k ∈ [ids 0, ids 4, ids 5, ids 6, ids 7] := hk
    simp only [List.mem_cons, List.not_mem_nil, or_false] at hk
    rcases hk with rfl | rfl | rfl | rfl | rfl
    · exact ⟨MF, cF, g2⟩
    · exact ⟨_, (hMi 0 (by norm_num)).1⟩
    · exact ⟨_, (hMi 1 (by norm_num)).1⟩
    · exact ⟨_, (hMi 2 (by norm_num)).1⟩
    · exact ⟨_, (hMi 3 (by norm_num)).1⟩

theorem finner_replaced {l o : List (String × ℝ)} {p : Finner.Params} (ha : FinnerArgs (l ++ o) p) {name : String} {v : ℝ}
    (he : (name, v) ∈ l) (f : ℝ) : FinnerArgs (replaced l name (v * f) ++ o) (finnerTimes p name f) ∧ finnerValue p name v := by
  have hmul : ∀ (k : String) (x : ℝ), (k = name → x = v) → x * (if k = name then f else 1) = if k = name then v * f else x := by
    intro k x hx
    split_ifs with hk
    · rw [hx hk]
    · ring
  obtain ⟨a1, a2⟩ := given_replaced (q := v * f) ha.keys he ha.diameter
  obtain ⟨b1, b2⟩ := given_replaced (q := v * f) ha.keys he ha.total_length
  obtain ⟨c1, c2⟩ := given_replaced (q := v * f) ha.keys he ha.nose_length
  obtain ⟨d1, d2⟩ := given_replaced (q := v * f) ha.keys he ha.fin_height
  obtain ⟨e1, e2⟩ := given_replaced (q := v * f) ha.keys he ha.fin_length
  obtain ⟨f1, f2⟩ := given_replaced (q := v * f) ha.keys he ha.max_fin_thickness
  rw [← hmul _ _ a2] at a1
  rw [← hmul _ _ b2] at b1
  rw [← hmul _ _ c2] at c1
  rw [← hmul _ _ d2] at d1
  rw [← hmul _ _ e2] at e1
  rw [← hmul _ _ f2] at f1
  refine ⟨⟨?_, a1, b1, c1, d1, e1, f1⟩, a2, b2, c2, d2, e2, f2⟩
  have hn := ha.keys
  unfold Dict.keys at hn ⊢
  rw [List.map_append, replaced_keys, ← List.map_append]
  exact hn

/-- The rates of the components of the Finner. -/
noncomputable def finnerRates (p : Finner.Params) (c : String) : String → V → V :=
  if c = "fuselage" then finnerBodyRate p else if c = "fin_1" then finnerTurnedRate p 0 else if c = "fin_2" then finnerTurnedRate p 1
  else if c = "fin_3" then finnerTurnedRate p 2 else finnerTurnedRate p 3

/-- C165: the study of the Finner, for all parameters (with distinct names) and overrides, every perturbation, and with or without writing
the nominal geometry: it succeeds; if no parameter and not the perturbation is zero, the tables of the fuselage and of each fin hold
exactly how each vertex moves with each parameter, and so do the combined tables. -/
theorem C165_finner (h : Heap) (ids : ℕ → ℕ) (hi : Function.Injective ids) (lib : Lib) (depth : ℕ) (self : Study) (run : Run)
    (l o : List (String × ℝ)) (hl : l ≠ []) (prm : Finner.Params) (ha : FinnerArgs (l ++ o) prm) (hN : 0 < prm.nose_length)
    (hT : prm.nose_length < prm.total_length) (p : ℝ) (write : Bool) (pre : Option String) :
    ∃ T self' run' MF, ∃ Mi : ℕ → StlMesh, dvdp self (Finner.ctor h ids) lib depth run (numbers l) (numbers o) p write pre = (.ok T, self', run') ∧
      Generates (Finner.ctor h ids) lib depth (kwGiven run.store (numbers l) (numbers o)) "fuselage" MF ∧
      (∀ i < 4, Generates (Finner.ctor h ids) lib depth (kwGiven run.store (numbers l) (numbers o)) ("fin_" ++ toString (i + 1)) (Mi i)) ∧
      (p ≠ 0 → (∀ e ∈ l, e.2 ≠ 0) → ExactStudy T self' l "fuselage" MF (finnerBodyRate prm) ∧
        ∀ i < 4, ExactStudy T self' l ("fin_" ++ toString (i + 1)) (Mi i) (finnerTurnedRate prm i)) := by
  have hln : (l.map Prod.fst).Nodup := by
    have hn := ha.keys
    unfold Dict.keys at hn
    rw [List.map_append] at hn
    exact hn.of_append_left
  have hdis : ∀ e ∈ l, e.1 ∉ (numbers o).keys := by
    intro e he ho
    have hn := ha.keys
    unfold Dict.keys at hn
    rw [List.map_append, List.nodup_append] at hn
    have ho : e.1 ∈ o.map Prod.fst := by simpa [numbers, Dict.keys, Function.comp_def] using ho
    exact hn.2.2 e.1 (List.mem_map.2 ⟨e, he, rfl⟩) e.1 ho rfl
  obtain ⟨MF, Mi, h0, M0, c0, m1, m2, m3, m4, m5⟩ := finner_makes h ids hi _ prm ha lib depth
  have hkeys : ∀ A B, (finnerMeshes A B).keys.Nodup := fun A B => by simp [finnerMeshes, Dict.keys]
  obtain ⟨T, self', run', hd, hx⟩ := study_exact (Finner.ctor h ids) lib depth self run l (numbers o) hln hdis hl p write pre
    (finnerMade ids) (finnerMeshes MF Mi) (hkeys _ _) rfl rfl (finnerRates prm) (by rw [vals_given]; exact m1) (by
      rintro ⟨name, v⟩ he
      obtain ⟨a1, a2⟩ := finner_replaced ha he (1 + p / 100)
      obtain ⟨MF', Mi', h0', M0', c0', n1, n2, n3, n4, n5⟩ := finner_makes h ids hi _ _ a1 lib depth
      refine ⟨finnerMade ids, finnerMeshes MF' Mi', by rw [vals_with]; exact n1, hkeys _ _, ?_⟩
      have hfin : ∀ i < 4, ∃ f : V → V, (Mi' i).tris = mapVerts f (Mi i).tris ∧
          (v ≠ 0 → p ≠ 0 → ∀ x, x ∈ vertexList (Mi i) → f x = x + finnerTurnedRate prm i name x * (v * p / 100)) := by
        intro i h4
        refine ⟨finMoveTo prm (finnerTimes prm name (1 + p / 100)) (if "max_fin_thickness" = name then 1 + p / 100 else 1)
          (if "fin_length" = name then 1 + p / 100 else 1) (if "fin_height" = name then 1 + p / 100 else 1) i, ?_,
          fun hv _ x _ => finner_fin_rate prm name v p hv a2 i x⟩
        rw [n5 i h4, m5 i h4, fin_pair prm (finnerTimes prm name (1 + p / 100)) (if "max_fin_thickness" = name then 1 + p / 100 else 1)
          (if "fin_length" = name then 1 + p / 100 else 1) (if "fin_height" = name then 1 + p / 100 else 1) rfl rfl rfl _ _ _ _ _ _ m3 m4 n3 n4,
          ← mapVerts_comp, ← mapVerts_comp]
        congr 1
        funext x
        unfold finMoveTo
        rw [(turn_back i _).1, fin_unplace]
      intro m hm
      simp only [finnerMeshes, List.mem_cons, List.not_mem_nil, or_false] at hm
      rcases hm with rfl | rfl | rfl | rfl | rfl
      · refine ⟨MF', by simp [finnerMeshes], bodyMove prm.nose_length prm.total_length (finnerTimes prm name (1 + p / 100)).nose_length
          (finnerTimes prm name (1 + p / 100)).total_length (if "diameter" = name then 1 + p / 100 else 1), ?_,
          fun hv _ x _ => finner_body_rate prm name v p hv a2 hN hT x⟩
        rw [n2, m2]
        exact pieces_grid (finner_pieces prm _ _ hN hT rfl) 8 (by norm_num)
      · exact ⟨Mi' 0, by simp [finnerMeshes], hfin 0 (by norm_num)⟩
      · exact ⟨Mi' 1, by simp [finnerMeshes], hfin 1 (by norm_num)⟩
      · exact ⟨Mi' 2, by simp [finnerMeshes], hfin 2 (by norm_num)⟩
      · exact ⟨Mi' 3, by simp [finnerMeshes], hfin 3 (by norm_num)⟩)
  rw [← vals_given run.store] at m1
  have n1 : "fin_" ++ toString (0 + 1) = "fin_1" := by decide
  have n2 : "fin_" ++ toString (1 + 1) = "fin_2" := by decide
  have n3 : "fin_" ++ toString (2 + 1) = "fin_3" := by decide
  have n4 : "fin_" ++ toString (3 + 1) = "fin_4" := by decide
  refine ⟨T, self', run', MF, Mi, hd, makes_mem (hkeys _ _) (by simp [finnerMeshes]) m1, ?_, fun hp hv => ⟨?_, ?_⟩⟩
  · intro i h4
    apply makes_mem (hkeys MF Mi) _ m1
    interval_cases i
    · rw [n1]; simp [finnerMeshes]
    · rw [n2]; simp [finnerMeshes]
    · rw [n3]; simp [finnerMeshes]
    · rw [n4]; simp [finnerMeshes]
  · exact hx hp hv ("fuselage", MF) (by simp [finnerMeshes])
  · intro i h4
    interval_cases i
    · rw [n1]; exact hx hp hv ("fin_1", Mi 0) (by simp [finnerMeshes])
    · rw [n2]; exact hx hp hv ("fin_2", Mi 1) (by simp [finnerMeshes])
    · rw [n3]; exact hx hp hv ("fin_3", Mi 2) (by simp [finnerMeshes])
    · rw [n4]; exact hx hp hv ("fin_4", Mi 3) (by simp [finnerMeshes])

/-- A study that meets the hypotheses of `C165_finner`. -/
example : ([("diameter", (3 : ℝ)), ("nose_length", 4)] : List (String × ℝ)) ≠ [] ∧
    FinnerArgs ([("diameter", (3 : ℝ)), ("nose_length", 4)] ++ [("fin_height", 2)]) ⟨3, 10, 4, 2, 1, 0.08⟩ ∧ (0 : ℝ) < 4 ∧ (4 : ℝ) < 10 ∧
    Function.Injective (fun k : ℕ => k + 5) ∧ ∀ e ∈ [("diameter", (3 : ℝ)), ("nose_length", 4)], e.2 ≠ 0 := by
  refine ⟨by simp, ⟨by decide, .inl ?_, .inr ⟨?_, rfl⟩, .inl ?_, .inl ?_, .inr ⟨?_, rfl⟩, .inr ⟨?_, rfl⟩⟩, by norm_num, by norm_num,
    fun a b h => by simpa using h, ?_⟩
  · simp
  · simp
  · simp
  · simp
  · simp
  · simp
  · intro e he
    simp only [List.mem_cons, List.not_mem_nil, or_false] at he
    rcases he with rfl | rfl <;> norm_num

end HV
